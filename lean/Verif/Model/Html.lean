import Verif.Model.Escape
/- `/repo/htmlbasic.go`. -/
namespace Verif.Model

/-- `type HTMLBasicSegmentType`, `/repo/htmlbasic.go:26-30`; the attribute map is the list of
assignments made to it, in order. -/
structure HtmlSeg where
  cat : UInt8        -- 'O' 79, 'C' 67, 'T' 84
  str : Bytes
  attr : List (Bytes × Bytes) := []
  deriving DecidableEq, Repr

/-- Position-free form of the first match of the regular expression `(?U)<.*>`: the text before the first
`<` that is followed by a `>`, the bytes between them (up to the *first* such `>`), and the rest.
`/repo/htmlbasic.go:40-42`. (Line feeds, which `.` does not match, have been removed.) -/
def splitAtByte (c : UInt8) : Bytes → Option (Bytes × Bytes)
  | [] => none
  | b :: r => if b = c then some ([], r) else (splitAtByte c r).map fun (x, y) => (b :: x, y)

/-- One match of the tag expression `(?U)<.*>`: text before, inside and behind. `/repo/htmlbasic.go:40-49`. -/
def findTag (s : Bytes) : Option (Bytes × Bytes × Bytes) :=
  match splitAtByte 0x3C s with
  | none => none
  | some (pre, r) =>
    match splitAtByte 0x3E r with
    | none => none
    | some (inner, rest) => some (pre, inner, rest)

/-- `strings.Split(s, " ")`. `/repo/htmlbasic.go:61`. -/
def splitSpace : Bytes → List Bytes
  | [] => [[]]
  | c :: r =>
    if c = 32 then [] :: splitSpace r
    else match splitSpace r with
      | p :: ps => (c :: p) :: ps
      | [] => [[c]]

/-- The segment appended for a tag with the given inner text, `/repo/htmlbasic.go:54-80`. `lower` is
`strings.ToLower`; `attrs` is the list of (key, value) submatches of the attribute expression
`([^=]+)=["']?([^"']+)` in one part. -/
def tagSeg (lower : Bytes → Bytes) (attrs : Bytes → List (Bytes × Bytes)) (inner : Bytes) : HtmlSeg :=
  if inner.head? = some 0x2F then { cat := 67, str := lower inner.tail }
  else
    let parts := splitSpace inner
    { cat := 79, str := lower (parts.headD []), attr := (parts.tail.flatMap attrs).map fun (k, v) => (lower k, v) }

/-- The loop over the matches, `/repo/htmlbasic.go:46-88`; `fuel` bounds the number of tags. -/
def htmlLoop (lower : Bytes → Bytes) (attrs : Bytes → List (Bytes × Bytes)) : Nat → Bytes → List HtmlSeg
  | 0, _ => []
  | fuel + 1, s =>
    match findTag s with
    | none => if s.length > 0 then [{ cat := 84, str := s }] else []
    | some (pre, inner, rest) =>
      (if pre.length > 0 then [{ cat := 84, str := pre }] else []) ++
        tagSeg lower attrs inner :: htmlLoop lower attrs fuel rest

/-- `func HTMLBasicTokenize`, `/repo/htmlbasic.go:35-93`. -/
def htmlTokenize (lower : Bytes → Bytes) (attrs : Bytes → List (Bytes × Bytes)) (s : Bytes) : List HtmlSeg :=
  let s := replaceAll [10] [32] s
  let s := replaceAll [13] [] s
  match findTag s with
  | none => [{ cat := 84, str := s }]
  | some _ => htmlLoop lower attrs (s.length + 1) s

/-- Calls made on the document by `HTMLBasicType.Write`. `/repo/htmlbasic.go:125-220`. -/
inductive HtmlCall
  | setFont (style : Bytes)               -- SetFont("", style, 0)
  | setTextColor (r g b : Int)
  | write (txt : Bytes)
  | writeLink (txt url : Bytes)
  | writeAligned (txt align : Bytes)
  | ln
  deriving DecidableEq, Repr

/-- Local variables of `Write` and its fixed settings, `/repo/htmlbasic.go:126-137`. -/
structure HtmlSt where
  bold : Int := 0
  italic : Int := 0
  under : Int := 0
  href : Bytes := []
  align : Bytes := B "L"
  calls : List HtmlCall := []
  deriving DecidableEq, Repr

/-- `HTMLBasicType.Link` settings plus the text colour on entry. `/repo/htmlbasic.go:95-124`. -/
structure HtmlEnv where
  linkBold : Bool := false
  linkItalic : Bool := false
  linkUnder : Bool := true
  linkClr : Int × Int × Int := (0, 0, 128)
  textClr : Int × Int × Int := (0, 0, 0)

/-- The style string built by `setStyle`. `/repo/htmlbasic.go:141-151`. -/
def htmlStyleStr (b i u : Int) : Bytes :=
  (if b > 0 then B "B" else []) ++ (if i > 0 then B "I" else []) ++ (if u > 0 then B "U" else [])

/-- The closure `setStyle`, `/repo/htmlbasic.go:138-153`. -/
def HtmlSt.setStyle (st : HtmlSt) (b i u : Int) : HtmlSt :=
  { st with bold := st.bold + b, italic := st.italic + i, under := st.under + u,
            calls := st.calls ++ [.setFont (htmlStyleStr (st.bold + b) (st.italic + i) (st.under + u))] }

/-- Make a call on the document. `/repo/htmlbasic.go:154-218`. -/
def HtmlSt.call (st : HtmlSt) (c : HtmlCall) : HtmlSt := { st with calls := st.calls ++ [c] }

/-- The closure `putLink`, `/repo/htmlbasic.go:154-161`. -/
def HtmlSt.putLink (env : HtmlEnv) (st : HtmlSt) (url txt : Bytes) : HtmlSt :=
  let (lr, lg, lb) := env.linkClr
  let (tr, tg, tb) := env.textClr
  let n := fun c : Bool => if c then (1 : Int) else 0
  let st := st.call (.setTextColor lr lg lb)
  let st := st.setStyle (n env.linkBold) (n env.linkItalic) (n env.linkUnder)
  let st := st.call (.writeLink txt url)
  let st := st.setStyle (-n env.linkBold) (-n env.linkItalic) (-n env.linkUnder)
  st.call (.setTextColor tr tg tb)

/-- Body of the loop of `Write`, `/repo/htmlbasic.go:165-218`. -/
def htmlStep (env : HtmlEnv) (st : HtmlSt) (el : HtmlSeg) : HtmlSt :=
  if el.cat = 84 then
    if st.href.length > 0 then { (st.putLink env st.href el.str) with href := [] }
    else if st.align = B "C" ∨ st.align = B "R" then st.call (.writeAligned el.str st.align)
    else st.call (.write el.str)
  else if el.cat = 79 then
    if el.str = B "b" then st.setStyle 1 0 0
    else if el.str = B "i" then st.setStyle 0 1 0
    else if el.str = B "u" then st.setStyle 0 0 1
    else if el.str = B "br" then st.call .ln
    else if el.str = B "center" then { st.call .ln with align := B "C" }
    else if el.str = B "right" then { st.call .ln with align := B "R" }
    else if el.str = B "left" then { st.call .ln with align := B "L" }
    else if el.str = B "a" then
      { st with href := ((el.attr.reverse.find? (·.1 = B "href")).map (·.2)).getD [] }
    else st
  else if el.cat = 67 then
    if el.str = B "b" then st.setStyle (-1) 0 0
    else if el.str = B "i" then st.setStyle 0 (-1) 0
    else if el.str = B "u" then st.setStyle 0 0 (-1)
    else if el.str = B "center" then { st.call .ln with align := B "L" }
    else if el.str = B "right" then { st.call .ln with align := B "L" }
    else st
  else st

/-- `func (html *HTMLBasicType) Write`, `/repo/htmlbasic.go:125-220`, on the token list. -/
def htmlWrite (env : HtmlEnv) (list : List HtmlSeg) : HtmlSt := list.foldl (htmlStep env) {}

end Verif.Model
