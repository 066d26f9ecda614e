import Verif.Spec.Svg
/- `/repo/svgbasic.go`, `/repo/svgwrite.go`. float64 is idealised as `Rat`. -/
namespace Verif.Model
open Verif

/-- `type SVGBasicSegmentType`, `/repo/svgbasic.go:42-45`; `Arg [6]float64` as six fields. -/
structure Seg where
  cmd : UInt8
  a0 : Rat := 0
  a1 : Rat := 0
  a2 : Rat := 0
  a3 : Rat := 0
  a4 : Rat := 0
  a5 : Rat := 0
  deriving DecidableEq, Repr

/-- ASCII codes of the commands. `/repo/svgbasic.go:58-100, 152-181`. -/
def cM : UInt8 := 77
@[inherit_doc cM] def cm : UInt8 := 109
@[inherit_doc cM] def cL : UInt8 := 76
@[inherit_doc cM] def cl : UInt8 := 108
@[inherit_doc cM] def cC : UInt8 := 67
@[inherit_doc cM] def cc : UInt8 := 99
@[inherit_doc cM] def cQ : UInt8 := 81
@[inherit_doc cM] def cq : UInt8 := 113
@[inherit_doc cM] def cH : UInt8 := 72
@[inherit_doc cM] def ch : UInt8 := 104
@[inherit_doc cM] def cV : UInt8 := 86
@[inherit_doc cM] def cv : UInt8 := 118
@[inherit_doc cM] def cZ : UInt8 := 90
@[inherit_doc cM] def cz : UInt8 := 122

/-- Body of the loop of `absolutizePath` for one segment, `/repo/svgbasic.go:57-109`: the rewritten
segment and the new values of `x`, `y`. `first` is `j == 0`. -/
def absolutizeSeg (first : Bool) (x y : Rat) (seg : Seg) : Seg × Rat × Rat :=
  let seg := if first && seg.cmd = cm then { seg with cmd := cM } else seg
  if seg.cmd = cM then (seg, seg.a0, seg.a1)
  else if seg.cmd = cm then
    let s := { seg with a0 := seg.a0 + x, a1 := seg.a1 + y, cmd := cM }; (s, s.a0, s.a1)
  else if seg.cmd = cL then (seg, seg.a0, seg.a1)
  else if seg.cmd = cl then
    let s := { seg with a0 := seg.a0 + x, a1 := seg.a1 + y, cmd := cL }; (s, s.a0, s.a1)
  else if seg.cmd = cC then (seg, seg.a4, seg.a5)
  else if seg.cmd = cc then
    let s := { seg with a0 := seg.a0 + x, a1 := seg.a1 + y, a2 := seg.a2 + x, a3 := seg.a3 + y,
                        a4 := seg.a4 + x, a5 := seg.a5 + y, cmd := cC }
    (s, s.a4, s.a5)
  else if seg.cmd = cQ then (seg, seg.a2, seg.a3)
  else if seg.cmd = cq then
    let s := { seg with a0 := seg.a0 + x, a1 := seg.a1 + y, a2 := seg.a2 + x, a3 := seg.a3 + y, cmd := cQ }
    (s, s.a2, s.a3)
  else if seg.cmd = cH then (seg, seg.a0, y)
  else if seg.cmd = ch then ({ seg with a0 := seg.a0 + x, cmd := cH }, x + seg.a0, y)
  else if seg.cmd = cV then (seg, x, seg.a0)
  else if seg.cmd = cv then ({ seg with a0 := seg.a0 + y, cmd := cV }, x, y + seg.a0)
  else if seg.cmd = cz then ({ seg with cmd := cZ }, x, y)
  else (seg, x, y)

/-- `func absolutizePath`, `/repo/svgbasic.go:47-111` (in-place update becomes the returned list). -/
def absolutizeFrom : Bool → Rat → Rat → List Seg → List Seg
  | _, _, _, [] => []
  | first, x, y, s :: r => let (s', x', y') := absolutizeSeg first x y s; s' :: absolutizeFrom false x' y' r

/-- `func absolutizePath`, `/repo/svgbasic.go:47-110`. -/
def absolutizePath (segs : List Seg) : List Seg := absolutizeFrom true 0 0 segs

/-- `setArg`: `seg.Arg[argJ] = v`, `/repo/svgbasic.go:171`. -/
def Seg.setArg (s : Seg) (j : Nat) (v : Rat) : Seg :=
  match j with
  | 0 => { s with a0 := v } | 1 => { s with a1 := v } | 2 => { s with a2 := v }
  | 3 => { s with a3 := v } | 4 => { s with a4 := v } | 5 => { s with a5 := v } | _ => s

/-- Local variables of `pathParse`, `/repo/svgbasic.go:114-129`. -/
structure ParseSt where
  seg : Seg := { cmd := 0 }
  argJ : Nat := 0
  argCount : Nat := 0
  prevArgCount : Nat := 0
  segs : List Seg := []
  err : Bool := false
  deriving DecidableEq, Repr

/-- The closure `setup`, `/repo/svgbasic.go:116-125`. -/
def ParseSt.setup (st : ParseSt) (n : Nat) : ParseSt :=
  { st with seg := { cmd := st.seg.cmd }, argJ := 0, argCount := n, prevArgCount := n }

/-- Number of arguments of a command, `/repo/svgbasic.go:152-169`; `none` for an unknown command. -/
def cmdArgs (c : UInt8) : Option Nat :=
  if c = cM ∨ c = cm then some 2
  else if c = cC ∨ c = cc then some 6
  else if c = cH ∨ c = ch then some 1
  else if c = cL ∨ c = cl then some 2
  else if c = cQ ∨ c = cq then some 4
  else if c = cV ∨ c = cv then some 1
  else if c = cZ ∨ c = cz then some 0
  else none

/-- Body of the token loop of `pathParse`, `/repo/svgbasic.go:131-181`. `pf` is `strconv.ParseFloat`;
`j` is the token index; tokens are non-empty (result of `strings.Fields`). -/
def parseTok (pf : Bytes → Option Rat) (st : ParseSt) (j : Nat) (str : Bytes) : ParseSt :=
  if st.err then st else
  let c := str.headD 0
  let st :=
    if st.argCount = 0 ∧ (c = 45 ∨ (48 ≤ c ∧ c ≤ 57)) then
      if j > 0 then
        let st := st.setup st.prevArgCount
        if st.seg.cmd = cM then { st with seg := { st.seg with cmd := cL } }
        else if st.seg.cmd = cm then { st with seg := { st.seg with cmd := cl } }
        else st
      else { st with err := true }
    else st
  if st.err then st else
  if st.argCount = 0 then
    let st := { st with seg := { st.seg with cmd := c } }
    match cmdArgs c with
    | none => { st with err := true }
    | some 0 => { st with segs := st.segs ++ [st.seg] }
    | some n => st.setup n
  else
    match pf str with
    | none => { st with err := true }
    | some v =>
      let st := { st with seg := st.seg.setArg st.argJ v, argJ := st.argJ + 1, argCount := st.argCount - 1 }
      if st.argCount = 0 then { st with segs := st.segs ++ [st.seg] } else st

/-- The loop over the tokens of a path, `/repo/svgbasic.go:131-200`. -/
def parseToks (pf : Bytes → Option Rat) : ParseSt → Nat → List Bytes → ParseSt
  | st, _, [] => st
  | st, j, t :: r => parseToks pf (parseTok pf st j t) (j + 1) r

/-- `pathCmdSub`, `/repo/svgbasic.go:29-40`, applied byte by byte (all keys of the replacer are single
bytes). -/
def pathCmdSub (s : Bytes) : Bytes :=
  s.flatMap fun c =>
    if c = 44 then [32]
    else if (cmdArgs c).isSome then [32, c, 32]
    else [c]

/-- Byte classification of `strings.Fields` for ASCII. SIMPLIFICATION: non-ASCII white space (U+0085,
U+00A0, U+2000…) is not treated as a separator. `/repo/svgbasic.go:129`. -/
def isFieldSpace (c : UInt8) : Bool := c = 9 || c = 10 || c = 11 || c = 12 || c = 13 || c = 32

/-- `strings.Fields`; `cur` is the field being collected. `/repo/svgbasic.go:129`. -/
def fieldsFrom (cur : Bytes) : Bytes → List Bytes
  | [] => if cur = [] then [] else [cur]
  | c :: r =>
    if isFieldSpace c then (if cur = [] then fieldsFrom [] r else cur :: fieldsFrom [] r)
    else fieldsFrom (cur ++ [c]) r

/-- `strings.Fields`, used at `/repo/svgbasic.go:129`. -/
def fields (s : Bytes) : List Bytes := fieldsFrom [] s

/-- `func pathParse`, `/repo/svgbasic.go:113-190`; `none` is a non-nil error. -/
def pathParse (pf : Bytes → Option Rat) (pathStr : Bytes) : Option (List Seg) :=
  let st := parseToks pf {} 0 (fields (pathCmdSub pathStr))
  if st.err ∨ st.argCount ≠ 0 then none else some (absolutizePath st.segs)

/-- A drawing call made by `SVGBasicWrite`. `/repo/svgwrite.go:26-85`. -/
inductive SvgCall
  | setXY (x y : Rat)
  | line (x1 y1 x2 y2 : Rat)                             -- f.Line
  | curveCubic (x0 y0 cx0 cy0 x1 y1 cx1 cy1 : Rat)       -- f.CurveCubic, argument order as in Go
  | curve (x0 y0 cx cy x1 y1 : Rat)                      -- f.Curve
  | error
  deriving DecidableEq, Repr

/-- Inner loop of `SVGBasicWrite`, `/repo/svgwrite.go:46-83`, as the list of drawing calls, for one
path, together with the loop variables `x y startX startY`. (The outer loop continues with the same
variables.) -/
def svgWriteFrom (ox oy scale : Rat) : Rat → Rat → Rat → Rat → List Seg → List SvgCall
  | _, _, _, _, [] => []
  | x, y, sx, sy, s :: r =>
    let xv := fun a : Rat => ox + scale * a
    let yv := fun a : Rat => oy + scale * a
    if s.cmd = cM then .setXY (xv s.a0) (yv s.a1) :: svgWriteFrom ox oy scale (xv s.a0) (yv s.a1) (xv s.a0) (yv s.a1) r
    else if s.cmd = cL then .line x y (xv s.a0) (yv s.a1) :: svgWriteFrom ox oy scale (xv s.a0) (yv s.a1) sx sy r
    else if s.cmd = cC then
      .curveCubic x y (xv s.a0) (yv s.a1) (xv s.a4) (yv s.a5) (xv s.a2) (yv s.a3)
        :: svgWriteFrom ox oy scale (xv s.a4) (yv s.a5) sx sy r
    else if s.cmd = cQ then
      .curve x y (xv s.a0) (yv s.a1) (xv s.a2) (yv s.a3) :: svgWriteFrom ox oy scale (xv s.a2) (yv s.a3) sx sy r
    else if s.cmd = cH then .line x y (xv s.a0) y :: svgWriteFrom ox oy scale (xv s.a0) y sx sy r
    else if s.cmd = cV then .line x y x (yv s.a0) :: svgWriteFrom ox oy scale x (yv s.a0) sx sy r
    else if s.cmd = cZ then .line x y sx sy :: svgWriteFrom ox oy scale sx sy sx sy r
    else [.error]

end Verif.Model
