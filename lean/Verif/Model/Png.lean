import Verif.Model.State
/- `/repo/png.go`. A result `none` is a run-time panic of the Go code. -/
namespace Verif.Model

/-- `bytes.Buffer.Next(n)`: the next `n` bytes, or what there is; a negative `n` panics. `/repo/png.go:85-148`. -/
def bufNext (n : Int) (buf : Bytes) : Option (Bytes × Bytes) := if n < 0 then none else some (buf.take n.toNat, buf.drop n.toNat)

/-- A big-endian `int32`. `/repo/fpdf.go:3696-3703`. -/
def int32Of (a b c d : UInt8) : Int :=
  let n : Nat := a.toNat * 16777216 + b.toNat * 65536 + c.toNat * 256 + d.toNat
  if n < 2147483648 then n else (n : Int) - 4294967296

/-- `readBeInt32`, `/repo/fpdf.go:3696-3702`: the number, what is left, and the error. `binary.Read` gives `io.EOF` at the end of the buffer, which is ignored, and
`io.ErrUnexpectedEOF`, after reading what there is, when there are one to three bytes. -/
def readBeInt32 (buf : Bytes) : Int × Bytes × Option String :=
  match buf with
  | a :: b :: c :: d :: r => (int32Of a b c d, r, none)
  | [] => (0, [], none)
  | _ => (0, [], some "unexpected EOF")

/-- `readByte`, `/repo/fpdf.go:3704-3710`. -/
def readByte (buf : Bytes) : UInt8 × Bytes × Option String :=
  match buf with
  | a :: r => (a, r, none)
  | [] => (0, [], some "EOF")

/-- What the loop over the chunks collects, `/repo/png.go:82-84`, with the resolution and the error. -/
structure PngScan where
  pal : Bytes := []
  trns : List Int := []
  data : Bytes := []
  dpi : Rat := 72
  err : Option String := none
  deriving DecidableEq

/-- The transparent colour, `/repo/png.go:98-109`. -/
def pngTrns (ct : UInt8) (t : Bytes) (old : List Int) : Option (List Int) :=
  if ct = 0 then t[1]?.map fun a => [(a.toNat : Int)]
  else if ct = 2 then t[1]?.bind fun a => t[3]?.bind fun b => t[5]?.map fun c => [(a.toNat : Int), (b.toNat : Int), (c.toNat : Int)]
  else some (if 0 ∈ t then [((t.takeWhile (· ≠ 0)).length : Int)] else old)

/-- One pass of the loop, `/repo/png.go:87-144`: what was collected, what is left, and whether this was IEND. (`n` is the length read, `buf` follows it.) -/
def pngChunk (ct : UInt8) (readdpi : Bool) (s : PngScan) (n : Int) (buf : Bytes) : Option (PngScan × Bytes × Bool) :=
  let name := buf.take 4
  let buf := buf.drop 4
  if name = B "PLTE" then (bufNext n buf).map fun (p, buf) => ({ s with pal := p }, buf.drop 4, false)
  else if name = B "tRNS" then
    (bufNext n buf).bind fun (t, buf) => (pngTrns ct t s.trns).map fun l => ({ s with trns := l }, buf.drop 4, false)
  else if name = B "IDAT" then (bufNext n buf).map fun (d, buf) => ({ s with data := s.data ++ d }, buf.drop 4, false)
  else if name = B "IEND" then some (s, buf, true)
  else if name = B "pHYs" then
    let (x, buf, e1) := readBeInt32 buf
    let (y, buf, e2) := readBeInt32 buf
    let s := { s with err := e2.orElse fun _ => e1.orElse fun _ => s.err }
    match buf with
    | [] => none
    | u :: buf => some ({ s with dpi := if x = y ∧ readdpi then (if u = 1 then (x : Rat) / (393701 / 10000) else x) else s.dpi }, buf.drop 4, false)
  else (bufNext (n + 4) buf).map fun (_, buf) => (s, buf, false)

theorem bufNext_len {n : Int} {buf a b : Bytes} (h : bufNext n buf = some (a, b)) : b.length ≤ buf.length := by
  unfold bufNext at h
  split at h
  · cases h
  · cases h; simp

theorem readBeInt32_len (buf : Bytes) : (readBeInt32 buf).2.1.length ≤ buf.length := by
  unfold readBeInt32
  split <;> simp
  omega

theorem readBeInt32_pos {buf : Bytes} (h : (readBeInt32 buf).1 > 0) : (readBeInt32 buf).2.1.length < buf.length := by
  unfold readBeInt32 at h ⊢
  split
  · simp; omega
  · simp_all
  · simp_all

theorem pngChunk_len {ct : UInt8} {rd : Bool} {s s' : PngScan} {n : Int} {buf b : Bytes} {e : Bool} (h : pngChunk ct rd s n buf = some (s', b, e)) : b.length ≤ buf.length := by
  unfold pngChunk at h
  dsimp only at h
  have hd : (buf.drop 4).length ≤ buf.length := by simp
  generalize buf.drop 4 = buf' at *
  split at h
  · obtain ⟨⟨p, q⟩, h1, h2⟩ := Option.map_eq_some_iff.mp h
    cases h2
    have := bufNext_len h1
    simp; omega
  split at h
  · obtain ⟨⟨p, q⟩, h1, h2⟩ := Option.bind_eq_some_iff.mp h
    obtain ⟨l, h3, h4⟩ := Option.map_eq_some_iff.mp h2
    cases h4
    have := bufNext_len h1
    simp; omega
  split at h
  · obtain ⟨⟨p, q⟩, h1, h2⟩ := Option.map_eq_some_iff.mp h
    cases h2
    have := bufNext_len h1
    simp; omega
  split at h
  · cases h; exact hd
  split at h
  · have l1 := readBeInt32_len buf'
    have l2 := readBeInt32_len (readBeInt32 buf').2.1
    split at h
    · cases h
    · rename_i u r heq
      cases h
      rw [heq] at l2
      simp at l2 ⊢
      omega
  · obtain ⟨⟨p, q⟩, h1, h2⟩ := Option.map_eq_some_iff.mp h
    cases h2
    have := bufNext_len h1
    show q.length ≤ _
    omega

/-- The loop over the chunks, `/repo/png.go:85-148`. -/
def pngLoop (ct : UInt8) (readdpi : Bool) (s : PngScan) (buf : Bytes) : Option PngScan :=
  let n := (readBeInt32 buf).1
  let s := { s with err := (readBeInt32 buf).2.2.orElse fun _ => s.err }
  match h : pngChunk ct readdpi s n (readBeInt32 buf).2.1 with
  | none => none
  | some (s, b, iend) => if _h2 : iend = false ∧ n > 0 then pngLoop ct readdpi s b else some s
termination_by buf.length
decreasing_by
  have h3 := pngChunk_len h
  have h4 := readBeInt32_pos _h2.2
  omega

/-- What `sliceUncompress`, `/repo/util.go:94-106`, does: a bad header makes `zlib.NewReader` return a nil reader, whose deferred `Close` panics; other errors are returned. -/
inductive Inflated
  | badHeader
  | badBody
  | ok (b : Bytes)

/-- A byte of a slice; out of range panics. `/repo/png.go:181-185`. -/
def byteAt (data : Bytes) (i : Int) : Option UInt8 := if i < 0 then none else data[i.toNat]?

/-- The inner loops, `/repo/png.go:181-185` and `/repo/png.go:198-202`: the pixels of a row from place `pos` on, with `n` bytes each, of which the last is alpha. -/
def pngPixels (n : Nat) (data : Bytes) : Nat → Int → Option (Bytes × Bytes)
  | 0, _ => some ([], [])
  | k + 1, pos =>
    (List.range (n - 1)).mapM (fun j => byteAt data (pos + (j : Nat))) >>= fun col =>
    byteAt data (pos + ((n - 1 : Nat) : Int)) >>= fun a =>
    (pngPixels n data k (pos + n)).map fun (c, al) => (col ++ c, a :: al)

/-- The outer loops, `/repo/png.go:176-186` and `/repo/png.go:193-203`: `rows` rows from number `i` on. -/
def pngRows (n : Nat) (width : Int) (data : Bytes) : Nat → Nat → Option (Bytes × Bytes)
  | 0, _ => some ([], [])
  | rows + 1, i =>
    let pos : Int := (1 + (n : Int) * width) * (i : Nat)
    byteAt data pos >>= fun t =>
    pngPixels n data width.toNat (pos + 1) >>= fun (c, a) =>
    (pngRows n width data rows (i + 1)).map fun (cs, as) => (t :: c ++ cs, t :: a ++ as)

/-- `pngColorSpace`, `/repo/png.go:25-39`. -/
def pngColorSpace (ct : UInt8) : Option (Bytes × Nat) :=
  if ct = 0 ∨ ct = 4 then some (B "DeviceGray", 1)
  else if ct = 2 ∨ ct = 6 then some (B "DeviceRGB", 3)
  else if ct = 3 then some (B "Indexed", 1)
  else none

/-- `parsepngstream`, `/repo/png.go:41-213`, on a document without error: the image and the error, or a panic. `inflate` is `sliceUncompress`, `deflate` is `sliceCompress`.
The version of the document is raised by `RegisterImageOptionsReader` in this model (`Verif.Model.Fpdf.registerImage`). -/
def parsePng (deflate : Bytes → Bytes) (inflate : Bytes → Inflated) (buf : Bytes) (readdpi : Bool) : Option (ImageInfo × Option String) :=
  if buf.take 8 ≠ [0x89, 0x50, 0x4E, 0x47, 0x0D, 0x0A, 0x1A, 0x0A] then some ({}, some "not a PNG buffer")
  else
  let buf := (buf.drop 8).drop 4
  if buf.take 4 ≠ B "IHDR" then some ({}, some "incorrect PNG buffer")
  else
  let buf := buf.drop 4
  let (w, buf, e1) := readBeInt32 buf
  let (h, buf, e2) := readBeInt32 buf
  let (bpc, buf, e3) := readByte buf
  let e4 := if bpc > 8 then some "16-bit depth not supported in PNG file" else none
  let (ct, buf, e5) := readByte buf
  let e := e5.orElse fun _ => e4.orElse fun _ => e3.orElse fun _ => e2.orElse fun _ => e1
  match pngColorSpace ct with
  | none => some ({}, some "unknown color type in PNG buffer")
  | some (colspace, colorVal) =>
  if e.isSome then some ({}, e)
  else
  let (c1, buf, e6) := readByte buf
  if c1 ≠ 0 then some ({}, some "unknown compression method in PNG buffer")
  else
  let (c2, buf, e7) := readByte buf
  if c2 ≠ 0 then some ({}, some "unknown filter method in PNG buffer")
  else
  let (c3, buf, e8) := readByte buf
  if c3 ≠ 0 then some ({}, some "interlacing not supported in PNG buffer")
  else
  let buf := buf.drop 4
  let dp := sprintf "/Predictor 15 /Colors %d /BitsPerComponent %d /Columns %d" [.d colorVal, .d bpc.toNat, .d w]
  match pngLoop ct readdpi { err := e8.orElse fun _ => e7.orElse fun _ => e6 } buf with
  | none => none
  | some s =>
  let err := if colspace = B "Indexed" ∧ s.pal.length = 0 then some "missing palette in PNG buffer" else s.err
  let info : ImageInfo := { w := w, h := h, cs := colspace, bpc := bpc.toNat, f := B "FlateDecode", dp := dp, pal := s.pal, trns := s.trns, dpi := s.dpi }
  if ct ≥ 4 then
    match inflate s.data with
    | .badHeader => none
    | .badBody => some (info, some "zlib")
    | .ok data =>
      (pngRows (if ct = 4 then 2 else 4) w data h.toNat 0).map fun (color, alpha) => ({ info with data := deflate color, smask := some (deflate alpha) }, err)
  else some ({ info with data := s.data }, err)

end Verif.Model
