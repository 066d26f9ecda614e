import Verif.Spec.Bytes
/-
The structure of a PDF file (ISO 32000-1, 7.5): header, indirect objects, cross-reference table, trailer; and a reader of its last part.
-/
namespace Verif.Spec

/-- The contents of an indirect object: a plain object, or a stream (7.3.8) given by its dictionary and its data. -/
inductive Body
  | plain (b : Bytes)
  | stream (dict data : Bytes)
  deriving DecidableEq, Repr

/-- The bytes of the contents. -/
def Body.bytes : Body → Bytes
  | plain b => b
  | stream d s => d ++ B "stream\n" ++ s ++ B "\nendstream\n"

/-- Take a given prefix off. -/
def strip : Bytes → Bytes → Option Bytes
  | [], s => some s
  | c :: p, d :: s => if c = d then strip p s else none
  | _ :: _, [] => none

/-- One in-use entry of a cross-reference table (7.5.4): exactly twenty bytes, an offset of ten digits first. -/
def readEntry (s : Bytes) : Option (Nat × Bytes) :=
  if 10 ≤ s.length ∧ (s.take 10).all isDigit then
    (strip (B " 00000 n \n") (s.drop 10)).map fun r => (digitsVal (s.take 10), r)
  else none

/-- A number of entries. -/
def readEntries : Nat → Bytes → Option (List Nat × Bytes)
  | 0, s => some ([], s)
  | n + 1, s => do
    let (o, s) ← readEntry s
    let (os, s) ← readEntries n s
    pure (o :: os, s)

/-- The cross-reference table that starts at offset `start`: the offsets of objects 1, 2, …, and what follows the table. -/
def readXref (file : Bytes) (start : Nat) : Option (List Nat × Bytes) := do
  let s ← strip (B "xref\n0 ") (file.drop start)
  let (size, s) ← readNat s
  let s ← strip (B "\n0000000000 65535 f \n") s
  readEntries (size - 1) s

/-- The offset of the cross-reference table, read from the end of the file (7.5.5). -/
def readStart (file : Bytes) : Option Nat := do
  let s ← strip (B "\n%%EOF\n").reverse file.reverse
  let ds := s.takeWhile isDigit
  let _ ← strip (B "startxref\n").reverse (s.dropWhile isDigit)
  if ds = [] then none else pure (digitsVal ds.reverse)

/-- Object number `j` starts at offset `off`. -/
def objAt (file : Bytes) (off j : Nat) : Prop := ∃ rest, readNat (file.drop off) = some (j, B " 0 obj\n" ++ rest)

/-- The length a stream dictionary declares is `n`. -/
def Declares (dict : Bytes) (n : Nat) : Prop :=
  ∃ p ds c q, dict = p ++ B "/Length " ++ ds ++ c :: q ∧ ds ≠ [] ∧ (∀ d ∈ ds, isDigit d = true) ∧ digitsVal ds = n ∧ isDigit c = false

/-- A stream declares its exact length. -/
def Body.Ok : Body → Prop
  | plain _ => True
  | stream d s => Declares d s.length

/-- A number in decimal notation. -/
def decimal (n : Nat) : Bytes := B (toString n)

/-- The text of the indirect object number `n`. -/
def objText (n : Nat) (b : Body) : Bytes := decimal n ++ B " 0 obj\n" ++ b.bytes ++ B "endobj\n"

/-- The text of a sequence of indirect objects. -/
def objsText (items : List (Nat × Body)) : Bytes := items.flatMap fun x => objText x.1 x.2

/-- The size, the catalog and the information dictionary named in a trailer (7.5.5). -/
def readTrailer (s : Bytes) : Option (Nat × Nat × Nat) := do
  let s ← strip (B "trailer\n<<\n/Size ") s
  let (size, s) ← readNat s
  let s ← strip (B "\n/Root ") s
  let (root, s) ← readNat s
  let s ← strip (B " 0 R\n/Info ") s
  let (info, s) ← readNat s
  let _ ← strip (B " 0 R\n") s
  pure (size, root, info)

/-- After some other bytes, `file` is a PDF file with the objects `items`: the header names version 1.`version`; the end of the file leads to
the cross-reference table right behind the objects; the table has an entry for each of the objects and for no others, no two objects have the
same number, and each entry leads to its object; streams declare their exact length; and the trailer names the size of the table, the
catalog and the information dictionary, which exist. -/
structure IsPdf (file junk : Bytes) (version : Nat) (items : List (Nat × Body)) (root info : Nat) : Prop where
  parts : ∃ start offs trailer, readStart file = some start ∧ file.take start = junk ++ (B "%PDF-1." ++ decimal version ++ [10]) ++ objsText items ∧
    readXref file start = some (offs, trailer) ∧ readTrailer trailer = some (offs.length + 1, root, info) ∧
    (items.map Prod.fst).Perm (List.range' 1 offs.length) ∧
    (∀ x ∈ items, objText x.1 x.2 <+: file.drop (offs.getD (x.1 - 1) 0))
  lengths : ∀ x ∈ items, x.2.Ok
  root : ∃ r, (root, Body.plain (B "<<\n/Type /Catalog\n/Pages 1 0 R\n" ++ r)) ∈ items
  info : ∃ r, (info, Body.plain (B "<<\n" ++ r ++ B ">>\n")) ∈ items

/-- The contents of stream object `n`, given what decryption and decompression do. -/
def readStream (inflate : Bytes → Bytes) (decrypt : Nat → Bytes → Bytes) (n : Nat) (dict data : Bytes) : Bytes :=
  if (strip (B "<</Filter /FlateDecode ") dict).isSome then inflate (decrypt n data) else decrypt n data

/-- Object 1 is the page tree (7.7.3) with the given pages, in this order; `rest` stands for the default page size. -/
def PageTree (items : List (Nat × Body)) (kids : List Nat) (rest : Bytes) : Prop :=
  (1, Body.plain (B "<</Type /Pages\n/Kids [" ++ kids.flatMap (fun k => decimal k ++ B " 0 R ") ++ B "]\n/Count " ++ decimal kids.length ++ B "\n" ++ rest)) ∈ items

/-- Object `k` is a page with the given size entry (possibly empty), annotations and contents. -/
def PageObject (items : List (Nat × Body)) (read : Nat → Bytes → Bytes → Bytes) (k : Nat) (size annots contents : Bytes) : Prop :=
  ∃ boxes group c dict data,
    (k, Body.plain (B "<</Type /Page\n/Parent 1 0 R\n" ++ size ++ boxes ++ B "/Resources 2 0 R\n" ++ annots ++ group ++ (B "/Contents " ++ decimal c ++ B " 0 R>>\n"))) ∈ items ∧
    (c, Body.stream dict data) ∈ items ∧ read c dict data = contents

/-- Test of the reader. -/
example : readStart (B "...xref\n0 2\n0000000000 65535 f \n0000000017 00000 n \ntrailer\nstartxref\n3\n%%EOF\n") = some 3 := by decide +kernel
example : readXref (B "...xref\n0 2\n0000000000 65535 f \n0000000017 00000 n \ntrailer\nstartxref\n3\n%%EOF\n") 3
    = some ([17], B "trailer\nstartxref\n3\n%%EOF\n") := by decide +kernel

end Verif.Spec
