import Verif.Spec.Bytes
/-
Meaning of SVG path data (SVG 1.1, chapter 8) for the commands M L H V C Q Z and their relative forms.
-/
namespace Verif.Spec

structure Pt where
  x : Rat
  y : Rat
  deriving DecidableEq, Repr

def Pt.add (p q : Pt) : Pt := ⟨p.x + q.x, p.y + q.y⟩

inductive SvgCmd
  | move (rel : Bool) (p : Pt)
  | line (rel : Bool) (p : Pt)
  | horiz (rel : Bool) (x : Rat)
  | vert (rel : Bool) (y : Rat)
  | cubic (rel : Bool) (c0 c1 p : Pt)
  | quad (rel : Bool) (c p : Pt)
  | close
  deriving DecidableEq, Repr

/-- What is drawn. -/
inductive Stroke
  | line (p q : Pt)
  | cubic (p c0 c1 q : Pt)
  | quad (p c q : Pt)
  deriving DecidableEq, Repr

/-- Absolute position of a point given relative to `cur` (or absolutely). -/
def resolve (rel : Bool) (cur p : Pt) : Pt := if rel then cur.add p else p

/-- Strokes drawn by a path, given the current point and the start of the current sub-path. After
`closepath` the current point is the start of the sub-path (8.3.3). -/
def svgStrokes : Pt → Pt → List SvgCmd → List Stroke
  | _, _, [] => []
  | cur, start, c :: r =>
    match c with
    | .move rel p => let p' := resolve rel cur p; svgStrokes p' p' r
    | .line rel p => let p' := resolve rel cur p; .line cur p' :: svgStrokes p' start r
    | .horiz rel x => let p' := if rel then ⟨cur.x + x, cur.y⟩ else ⟨x, cur.y⟩; .line cur p' :: svgStrokes p' start r
    | .vert rel y => let p' := if rel then ⟨cur.x, cur.y + y⟩ else ⟨cur.x, y⟩; .line cur p' :: svgStrokes p' start r
    | .cubic rel c0 c1 p =>
      let p' := resolve rel cur p
      .cubic cur (resolve rel cur c0) (resolve rel cur c1) p' :: svgStrokes p' start r
    | .quad rel c p =>
      let p' := resolve rel cur p
      .quad cur (resolve rel cur c) p' :: svgStrokes p' start r
    | .close => .line cur start :: svgStrokes start start r

/-- Map all points of a stroke. -/
def Stroke.map (g : Pt → Pt) : Stroke → Stroke
  | .line p q => .line (g p) (g q)
  | .cubic p c0 c1 q => .cubic (g p) (g c0) (g c1) (g q)
  | .quad p c q => .quad (g p) (g c) (g q)

/-- Meaning of a command letter with its arguments. -/
def cmdOf (c : UInt8) (v : List Rat) : Option SvgCmd :=
  if c = 77 then (match v with | [x, y] => some (.move false ⟨x, y⟩) | _ => none)
  else if c = 109 then (match v with | [x, y] => some (.move true ⟨x, y⟩) | _ => none)
  else if c = 76 then (match v with | [x, y] => some (.line false ⟨x, y⟩) | _ => none)
  else if c = 108 then (match v with | [x, y] => some (.line true ⟨x, y⟩) | _ => none)
  else if c = 72 then (match v with | [x] => some (.horiz false x) | _ => none)
  else if c = 104 then (match v with | [x] => some (.horiz true x) | _ => none)
  else if c = 86 then (match v with | [y] => some (.vert false y) | _ => none)
  else if c = 118 then (match v with | [y] => some (.vert true y) | _ => none)
  else if c = 67 then (match v with | [a, b, c, d, x, y] => some (.cubic false ⟨a, b⟩ ⟨c, d⟩ ⟨x, y⟩) | _ => none)
  else if c = 99 then (match v with | [a, b, c, d, x, y] => some (.cubic true ⟨a, b⟩ ⟨c, d⟩ ⟨x, y⟩) | _ => none)
  else if c = 81 then (match v with | [a, b, x, y] => some (.quad false ⟨a, b⟩ ⟨x, y⟩) | _ => none)
  else if c = 113 then (match v with | [a, b, x, y] => some (.quad true ⟨a, b⟩ ⟨x, y⟩) | _ => none)
  else if c = 90 ∨ c = 122 then (match v with | [] => some .close | _ => none)
  else none

/-- Characters of a numeral. -/
def isNumChar (c : UInt8) : Bool := isDigit c || c = 45 || c = 43 || c = 46 || c = 101 || c = 69

/-- A numeral token: non-empty, numeral characters only. -/
def isNumeral (t : Bytes) : Bool := !t.isEmpty && t.all isNumChar

/-- Arguments separated by commas. -/
def joinComma : List Bytes → Bytes
  | [] => []
  | [a] => a
  | a :: r => a ++ 44 :: joinComma r

/-- A command of a path text: its letter, its arguments, and the argument groups that follow without a letter. -/
structure PathItem where
  letter : UInt8
  args : List Bytes
  more : List (List Bytes) := []
  deriving DecidableEq

/-- The command letter that argument groups without a letter stand for: a moveto is continued by linetos, any other command by itself (SVG 1.1, 8.3.1-8.3.2). -/
def implied (c : UInt8) : UInt8 := if c = 77 then 76 else if c = 109 then 108 else c

/-- Path text: each command letter followed by all its comma-separated arguments, e.g. `M10,20,30,40l5,-1z`. -/
def renderPath (items : List PathItem) : Bytes :=
  items.flatMap fun it => it.letter :: joinComma (it.args ++ it.more.flatten)

/-- Does the token start with a digit or a minus sign? -/
def startsPlain : Bytes → Bool
  | c :: _ => c = 45 || isDigit c
  | [] => false

end Verif.Spec
