import Verif.Spec.Bytes
/-
`TtfParse`, `/repo/ttfparser.go`: the advance widths and the character map. The file is the list of its bytes; a position is an offset in it. (In Go the position stays at the end of the
file when a read fails; reads after that fail too, so that they give the same values here, where positions go on.) Not modelled: the tables
name, OS/2 and post, which are read afterwards.
-/
namespace Verif.Model.TtfParse
open Verif

/-- `ReadUShort`, `/repo/ttfparser.go:361-364`, at a position: 0 if there are not two bytes left. -/
def rdU16 (f : Bytes) (p : Nat) : Nat :=
  match f[p]?, f[p + 1]? with
  | some a, some b => a.toNat * 256 + b.toNat
  | _, _ => 0

/-- `ReadShort`, `/repo/ttfparser.go:366-369`. -/
def rdI16 (f : Bytes) (p : Nat) : Int := if rdU16 f p < 32768 then (rdU16 f p : Int) else (rdU16 f p : Int) - 65536

/-- `ReadULong`, `/repo/ttfparser.go:371-374`. -/
def rdU32 (f : Bytes) (p : Nat) : Nat := if p + 3 < f.length then rdU16 f p * 65536 + rdU16 f (p + 2) else 0

/-- `numberOfHMetrics` as `ParseHhea` reads it, `/repo/ttfparser.go:145-152`. -/
def numberOfHMetrics (f : Bytes) (hhea : Nat) : Nat := rdU16 f (hhea + 34)

/-- `numGlyphs` as `ParseMaxp` reads it, `/repo/ttfparser.go:154-161`. -/
def numGlyphs (f : Bytes) (maxp : Nat) : Nat := rdU16 f (maxp + 4)

/-- The first loop of `ParseHmtx`, `/repo/ttfparser.go:167-170`. -/
def hmtxLoop (f : Bytes) : Nat → Nat → List Nat
  | 0, _ => []
  | n + 1, p => rdU16 f p :: hmtxLoop f n (p + 4)

/-- `ParseHmtx`, `/repo/ttfparser.go:163-179`: the field `Widths`; `none`: the index is out of range (run-time panic). -/
def parseHmtx (f : Bytes) (nH nG hmtx : Nat) : Option (List Nat) :=
  let ws := hmtxLoop f nH hmtx
  if nH < nG then
    match ws.getLast? with            -- Widths[numberOfHMetrics-1]
    | some w => some (ws ++ List.replicate (nG - nH) w)
    | none => none
  else some ws

/-- The loop over the encoding records, `/repo/ttfparser.go:189-197`: `offset31`. -/
def encLoop (f : Bytes) : Nat → Nat → Nat → Nat
  | 0, _, acc => acc
  | n + 1, p, acc => encLoop f n (p + 8) (if rdU16 f p = 3 ∧ rdU16 f (p + 2) = 1 then rdU32 f (p + 4) else acc)

/-- The glyph of a character of a segment, `/repo/ttfparser.go:238-255`: `k` characters after the first one, `c1`; `ra` is the position of the range offset. `none`: not put in the map. -/
def segGlyph (f : Bytes) (c1 : Nat) (d : Int) (ra ro k : Nat) : Option Nat :=
  if c1 + k = 0xFFFF then none         -- break: no character comes after it
  else
    let gid : Int :=
      if ro > 0 then
        let g : Int := rdU16 f (ra + ro + 2 * k)
        if g > 0 then g + d else g
      else (c1 + k : Nat) + d
    let gid := if gid ≥ 65536 then gid - 65536 else gid
    if gid > 0 then some gid.toNat else none

/-- `t.rec.Chars[c] = uint16(gid)`. -/
def put (m : Nat → Option Nat) (c g : Nat) : Nat → Option Nat := fun x => if x = c then some g else m x

/-- The loop over the characters of a segment, `/repo/ttfparser.go:230-257`. -/
def segLoop (f : Bytes) (c1 c2 : Nat) (d : Int) (ra ro : Nat) (m : Nat → Option Nat) : Nat → Option Nat :=
  (List.range (c2 + 1 - c1)).foldl (fun m k => match segGlyph f c1 d ra ro k with
    | some g => put m (c1 + k) g
    | none => m) m

/-- `ParseCmap`, `/repo/ttfparser.go:181-259`: the field `Chars`; `none` is an error. -/
def parseCmap (f : Bytes) (cmap : Nat) : Option (Nat → Option Nat) :=
  let offset31 := encLoop f (rdU16 f (cmap + 2)) (cmap + 4) 0
  if offset31 = 0 then none
  else
    let p := cmap + offset31
    if rdU16 f p ≠ 4 then none
    else
      let n := rdU16 f (p + 6) / 2
      let pEnd := p + 14
      let pStart := pEnd + 2 * n + 2
      let pDelta := pStart + 2 * n
      let pRange := pDelta + 2 * n
      some ((List.range n).foldl (fun m j =>
        segLoop f (rdU16 f (pStart + 2 * j)) (rdU16 f (pEnd + 2 * j)) (rdI16 f (pDelta + 2 * j)) (pRange + 2 * j) (rdU16 f (pRange + 2 * j)) m) fun _ => none)

/-- The loop over the records of the directory, `/repo/ttfparser.go:82-91`, from record `j` at position `p`: the entry of the map `tables` for a tag; `none`: a tag cannot be read. -/
def dirLoop (f tag : Bytes) : Nat → Nat → Option Nat → Option (Option Nat)
  | 0, _, m => some m
  | n + 1, p, m =>
    if p + 4 ≤ f.length then dirLoop f tag n (p + 16) (if (f.drop p).take 4 = tag then some (rdU32 f (p + 8)) else m)
    else none

/-- The position of a table, as `Seek` finds it, `/repo/ttfparser.go:333-341`; `none`: an error. -/
def tableOf (f tag : Bytes) : Option Nat := (dirLoop f tag (rdU16 f 4) 12 none).bind id

/-- `TtfParse` up to the character map, `/repo/ttfparser.go:60-125`: the fields `Widths` and `Chars`; `none` is an error or a panic. -/
def ttfMetrics (f : Bytes) : Option (List Nat × (Nat → Option Nat)) :=
  if f.take 4 ≠ [0, 1, 0, 0] then none
  else
    (tableOf f (B "head")).bind fun head =>
    if rdU32 f (head + 12) ≠ 0x5F0F3CF5 then none
    else
      (tableOf f (B "hhea")).bind fun hhea =>
      (tableOf f (B "maxp")).bind fun maxp =>
      (tableOf f (B "hmtx")).bind fun hmtx =>
      (parseHmtx f (numberOfHMetrics f hhea) (numGlyphs f maxp) hmtx).bind fun ws =>
      (tableOf f (B "cmap")).bind fun cmap =>
      (parseCmap f cmap).bind fun chars => some (ws, chars)

end Verif.Model.TtfParse
