import Verif.Spec.File
import Verif.Spec.Lex
import Verif.Spec.Unicode
/-
The catalog (ISO 32000-1, 7.7.2), the information dictionary (14.3.3) and the objects they name.
-/
namespace Verif.Spec

/-- `lit` is a literal string with value `v`: a reader finds `v` and goes on behind it. -/
def Lit (lit v : Bytes) : Prop := ∀ rest, readLit (lit ++ rest) = some (v, rest)

/-- `w` is the string to write for the text `v`: `v` itself, or, if `v` is text in UTF-8, the same characters in UTF-16 with a byte order mark
(for characters of the basic multilingual plane). -/
def StringFor (v : Bytes) (utf8 : Bool) (w : Bytes) : Prop :=
  if utf8 then ∀ cps : List Nat, (∀ cp ∈ cps, isScalar cp ∧ cp < 0x10000) → v = utf8Enc cps → ∃ b, w = 0xFE :: 0xFF :: b ∧ utf16Dec b = some cps else w = v

/-- Object `n` is a dictionary with these entries, whose values are strings. -/
def StringDict (items : List (Nat × Body)) (n : Nat) (es : List (Bytes × Bytes)) : Prop :=
  ∃ lits : List Bytes, lits.length = es.length ∧ (∀ (i : Nat) (e : Bytes × Bytes) (l : Bytes), es[i]? = some e → lits[i]? = some l → Lit l e.2) ∧
    (n, Body.plain (B "<<\n" ++ ((es.zip lits).flatMap fun x => x.1.1 ++ B " " ++ x.2 ++ [10]) ++ B ">>\n")) ∈ items

/-- The entries of a catalog after its type and the page tree, each empty or with its end of line. -/
structure CatalogParts where
  openAction : Bytes
  layout : Bytes
  outlines : Bytes
  layers : Bytes
  script : Bytes
  files : Bytes

/-- Object `n` is a catalog with these entries and no others; `script` and `files` are in the dictionary of name trees. -/
def IsCatalog (items : List (Nat × Body)) (n : Nat) (c : CatalogParts) : Prop :=
  (n, Body.plain (B "<<\n/Type /Catalog\n/Pages 1 0 R\n" ++ c.openAction ++ c.layout ++ c.outlines ++ c.layers ++ B "/Names <<\n" ++ c.script ++
    (B "/EmbeddedFiles " ++ c.files ++ [10]) ++ B ">>\n>>\n")) ∈ items

/-- The view that a zoom mode asks for (12.3.2.2). -/
def viewOf (zoom : Bytes) : Option Bytes :=
  if zoom = B "fullpage" then some (B "/Fit")
  else if zoom = B "fullwidth" then some (B "/FitH null")
  else if zoom = B "real" then some (B "/XYZ null null 1")
  else none

/-- The document is opened with this view of the page that is object `n`. -/
def openEntry (n : Nat) : Option Bytes → Bytes
  | some v => B "/OpenAction [" ++ decimal n ++ B " 0 R " ++ v ++ B "]\n"
  | none => []

/-- The page layout (table 28) that a layout mode asks for. -/
def layoutOf (m : Bytes) : Option Bytes :=
  if m = B "single" then some (B "SinglePage")
  else if m = B "continuous" then some (B "OneColumn")
  else if m = B "two" then some (B "TwoColumnLeft")
  else if m ∈ [B "SinglePage", B "OneColumn", B "TwoColumnLeft", B "TwoColumnRight", B "TwoPageLeft", B "TwoPageRight"] then some m
  else none

/-- The entry for a page layout. -/
def layoutEntry : Option Bytes → Bytes
  | some n => B "/PageLayout /" ++ n ++ [10]
  | none => []

/-- The entry for the outline whose root is object `n`. -/
def outlinesEntry (n : Nat) : Bytes := B "/Outlines " ++ decimal n ++ B " 0 R\n/PageMode /UseOutlines\n"

/-- References to objects. -/
def refList (l : List Nat) : Bytes := l.flatMap fun n => decimal n ++ B " 0 R "

/-- The optional content properties (8.11.4.2): the layers, in order, and those that are hidden at first. -/
def layersEntry (all off : List Nat) : Bytes :=
  B "/OCProperties <</OCGs [" ++ refList all ++ B "] /D <</OFF [" ++ refList off ++ B "] /Order [" ++ refList all ++ B "]>>>>\n"

/-- Object `n` is an optional content group (8.11.2) with this name, given in UTF-8. -/
def LayerObject (items : List (Nat × Body)) (decrypt : Nat → Bytes → Bytes) (n : Nat) (name : Bytes) : Prop :=
  ∃ lit c, (n, Body.plain (B "<</Type /OCG /Name " ++ lit ++ B ">>\n")) ∈ items ∧ Lit lit c ∧ StringFor name true (decrypt n c)

/-- Object `n` is a list of names (7.9.6) with one script, whose text is `script`. -/
def ScriptAt (items : List (Nat × Body)) (decrypt : Nat → Bytes → Bytes) (n : Nat) (script : Bytes) : Prop :=
  ∃ lit c, (n, Body.plain (B "<<\n/Names [(EmbeddedJS) " ++ decimal (n + 1) ++ B " 0 R]\n>>\n")) ∈ items ∧
    (n + 1, Body.plain (B "<<\n/S /JavaScript\n/JS " ++ lit ++ B "\n>>\n")) ∈ items ∧ Lit lit c ∧ decrypt (n + 1) c = script

/-- The list of embedded files (7.11.4): names with the objects that hold their specifications. -/
def filesEntry (ns : List Nat) : Bytes :=
  B "<< /Names [\n " ++ List.intercalate [10] (ns.mapIdx fun i n => B "(Attachement" ++ decimal (i + 1) ++ B ") " ++ decimal n ++ B " 0 R ") ++ B " \n] >>"

/-- Object `n` is a file specification (7.11.3) with this name, given in UTF-8; the file, embedded in a stream (7.11.4) that is object `s`, has this content.
`desc` is what is between the parentheses of the description. -/
def FileAt (items : List (Nat × Body)) (decrypt : Nat → Bytes → Bytes) (inflate : Bytes → Bytes) (n s : Nat) (name desc content : Bytes) : Prop :=
  ∃ lit c lit2 len rest data, (n, Body.plain (B "<< /Type /Filespec /F () /UF " ++ lit ++ B " /EF << /F " ++ decimal s ++ B " 0 R >> /Desc " ++ lit2 ++ B "\n>>\n")) ∈ items ∧
    Lit lit c ∧ StringFor name true (decrypt n c) ∧ Lit lit2 desc ∧
    (s, Body.stream (B "<< /Type /EmbeddedFile /Length " ++ decimal len ++ B " /Filter /FlateDecode " ++ rest) data) ∈ items ∧ inflate (decrypt s data) = content

/-- Among the annotations there is one for a file (12.5.6.15) whose file specification is object `n`, with this rectangle; `desc` and `name` are what is between the parentheses
of its contents and its title. -/
def FileAnnot (annots rect desc name : Bytes) (n : Nat) : Prop :=
  ∃ u v l1 l2 ap, annots = B "/Annots [" ++ u ++ (B "<< /Type /Annot /Subtype /FileAttachment /Rect [" ++ rect ++ B "] /Border [0 0 0]\n/Contents " ++ l1 ++ B " /T " ++ l2 ++ ap ++
    B "/FS " ++ decimal n ++ B " 0 R >>\n") ++ v ∧ Lit l1 desc ∧ Lit l2 name

/-- The encryption dictionary (table 21): object `n` names this handler, and the strings `O` and `U` and the number `P`. -/
def EncryptDict (items : List (Nat × Body)) (n : Nat) (O U : Bytes) (P : Int) : Prop :=
  ∃ lo lu, Lit lo O ∧ Lit lu U ∧
    (n, Body.plain (B "<<\n/Filter /Standard\n/V 1\n/R 2\n/O " ++ lo ++ B "\n/U " ++ lu ++ B "\n/P " ++ B (toString P) ++ B "\n>>\n")) ∈ items

/-- The end of a file whose trailer has these entries and, if the document is encrypted, names the encryption dictionary and an empty file identifier. -/
def EndsWith (file : Bytes) (size root info : Nat) (enc : Option Nat) : Prop :=
  ∃ pre start, file = pre ++ (B "trailer\n<<\n/Size " ++ decimal size ++ B "\n/Root " ++ decimal root ++ B " 0 R\n/Info " ++ decimal info ++ B " 0 R\n" ++
    (match enc with | some e => B "/Encrypt " ++ decimal e ++ B " 0 R\n/ID [()()]\n" | none => []) ++ B ">>\nstartxref\n" ++ decimal start ++ B "\n%%EOF\n")

end Verif.Spec
