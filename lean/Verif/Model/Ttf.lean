import Verif.Model.Writer
/-
Writing TrueType files: `/repo/utf8fontfile.go:152-182, 217-226, 570-636, 985-1027, 1061-1119`.
-/
namespace Verif.Model

/-- `packUint16`, `/repo/utf8fontfile.go:1104-1108`, for any `int`: the conversion to uint16 takes it modulo 2¹⁶. -/
def packUint16 (n : Int) : Bytes :=
  let m := (n % 65536).toNat
  [UInt8.ofNat (m / 256), UInt8.ofNat (m % 256)]

/-- `packUint32`, `/repo/utf8fontfile.go:1098-1102`. -/
def packUint32 (n : Int) : Bytes :=
  let m := (n % 4294967296).toNat
  packUint16 (m / 65536 : Nat) ++ packUint16 (m % 65536 : Nat)

/-- `packHeader`, `/repo/utf8fontfile.go:1061-1076`. -/
def packHeader (n n1 n2 n3 n4 : Nat) : Bytes := packUint32 n ++ packUint16 n1 ++ packUint16 n2 ++ packUint16 n3 ++ packUint16 n4

/-- `pack2Uint16`, `/repo/utf8fontfile.go:1078-1086`. -/
def pack2Uint16 (n1 n2 : Nat) : Bytes := packUint16 n1 ++ packUint16 n2

/-- `pack2Uint32`, `/repo/utf8fontfile.go:1088-1096`. -/
def pack2Uint32 (n1 n2 : Nat) : Bytes := packUint32 n1 ++ packUint32 n2

/-- The loop of `generateChecksum`, `/repo/utf8fontfile.go:174-180`. -/
def sumLoop : Bytes → Nat × Nat → Nat × Nat
  | a :: b :: c :: d :: r, s =>
    let hi := s.1 + (a.toNat <<< 8 + b.toNat)
    let lo := s.2 + (c.toNat <<< 8 + d.toNat)
    let hi := hi + lo >>> 16
    let lo := lo % 65536
    sumLoop r (hi % 65536, lo)
  | _, s => s

/-- `generateChecksum`, `/repo/utf8fontfile.go:167-182`. -/
def generateChecksum (data : Bytes) : Nat × Nat := sumLoop (data ++ List.replicate ((4 - data.length % 4) % 4) 0) (0, 0)

/-- `calcInt32`, `/repo/utf8fontfile.go:152-165`. -/
def calcInt32 (x y : Nat × Nat) : Nat × Nat :=
  let x := if y.2 > x.2 then (x.1 + 1, x.2 + 65536) else x
  let lo := x.2 - y.2
  let hi := if y.1 > x.1 then x.1 + 65536 - y.1 else x.1 - y.1
  (hi % 65536, lo)

/-- `splice`, `/repo/utf8fontfile.go:217-220`. -/
def splice (stream : Bytes) (offset : Nat) (value : Bytes) : Bytes := stream.take offset ++ value ++ stream.drop (offset + value.length)

/-- The loop that finds the greatest power of two, `/repo/utf8fontfile.go:990-993` and `:596-599`. -/
def powLoop (size writer n : Nat) : Nat × Nat :=
  if 0 < size ∧ size * 2 ≤ n then powLoop (size * 2) (writer + 1) n else (size, writer)
termination_by n - size

/-- The records of the directory, `/repo/utf8fontfile.go:1004-1014`. -/
def dirRecords (offset : Nat) : List (Bytes × Bytes) → Bytes
  | [] => []
  | (name, data) :: r =>
    let sum := generateChecksum data
    name ++ pack2Uint16 sum.1 sum.2 ++ pack2Uint32 offset data.length ++ dirRecords (offset + (data.length + 3) / 4 * 4) r

/-- The place of the table "head", `/repo/utf8fontfile.go:1002-1007`. -/
def headOffset (offset : Nat) (begin_ : Nat) : List (Bytes × Bytes) → Nat
  | [] => begin_
  | (name, data) :: r => headOffset (offset + (data.length + 3) / 4 * 4) (if name = B "head" then offset else begin_) r

/-- The tables, `/repo/utf8fontfile.go:1016-1020`. -/
def tableBodies (ts : List (Bytes × Bytes)) : Bytes := ts.flatMap fun t => (t.2 ++ [0, 0, 0]).take ((t.2.length + 3) / 4 * 4)

/-- `assembleTables`, `/repo/utf8fontfile.go:985-1027`. `tables` are the tables (`outTablesData`) with their names. -/
def assembleTables (tables : List (Bytes × Bytes)) : Bytes :=
  let n := tables.length
  let p := powLoop 1 0 n
  let findSize := p.1 * 16
  let ts := tables.mergeSort fun a b => bytesLe a.1 b.1
  let answer := packHeader 0x00010000 n findSize p.2 (n * 16 - findSize) ++ dirRecords (12 + n * 16) ts ++ tableBodies ts
  let sum := calcInt32 (0xB1B0, 0xAFBA) (generateChecksum answer)
  splice answer (headOffset (12 + n * 16) 0 ts + 8) (pack2Uint16 sum.1 sum.2)

/-- The segments of `generateCMAPTable`, `/repo/utf8fontfile.go:571-589`: first code and glyphs. `pairs` are the codes in order with their glyphs. -/
def cmapSegs : List (Nat × Nat) → List (Nat × List Nat)
  | pairs => (pairs.foldl (fun (s : List (Nat × List Nat) × Int × Int) e =>
      let segs :=
        if (e.1 : Int) = s.2.1 + 1 ∧ (e.2 : Int) = s.2.2 + 1 then
          match s.1 with
          | [] => [(0, [e.2])]
          | g :: r => (g.1, g.2 ++ [e.2]) :: r
        else (e.1, [e.2]) :: s.1
      (segs, (e.1 : Int), (e.2 : Int))) ([], -2, -1)).1.reverse

/-- `generateCMAPTable`, `/repo/utf8fontfile.go:570-636`. -/
def generateCMAPTable (pairs : List (Nat × Nat)) (numSymbols : Nat) : Bytes :=
  let segs := cmapSegs (pairs.mergeSort fun a b => a.1 ≤ b.1)
  let segCount := segs.length + 1
  let p := powLoop 1 0 segCount
  let searchRange := p.1 * 2
  let length := 16 + 8 * segCount + (numSymbols + 1)
  let cmap : List Int := ([0, 1, 3, 1, 0, 12, 4, ((length : Nat) : Int), 0, ((segCount * 2 : Nat) : Int), ((searchRange : Nat) : Int), ((p.2 : Nat) : Int), ((segCount * 2 : Nat) : Int) - ((searchRange : Nat) : Int)] : List Int)
    ++ segs.map (fun g => ((g.1 + (g.2.length - 1) : Nat) : Int)) ++ [0xFFFF, 0]
    ++ segs.map (fun g => (g.1 : Int)) ++ [0xFFFF]
    ++ segs.map (fun g => -((g.1 : Int) - (g.2.headD 0 : Nat))) ++ [1]
    ++ segs.map (fun _ => (0 : Int)) ++ [0]
    ++ segs.flatMap (fun g => g.2.map fun x : Nat => (x : Int)) ++ [0]
  cmap.flatMap packUint16

end Verif.Model
