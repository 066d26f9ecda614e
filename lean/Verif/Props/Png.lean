import Verif.Proof.Png
import Verif.Proof.Writes
/-
C30, C31: PNG images.
-/
namespace Verif.Props
open Verif Verif.Model Verif.Spec Verif.Proof

/-- What is read from the chunks of a file. -/
def scanned (p : Png) (rd : Bool) : PngScan := p.chunks.foldl (addChunk p.ct rd) {}

theorem parse_eq (deflate : Bytes → Bytes) (inflate : Bytes → Inflated) {p : Png} (hp : p.Ok) (hd : p.depth ≤ 8) (rd : Bool) {cs : Bytes} {cv : Nat} (hcs : pngColorSpace p.ct = some (cs, cv)) :
    parsePng deflate inflate p.text rd =
      (let err := if cs = B "Indexed" ∧ (scanned p rd).pal.length = 0 then some "missing palette in PNG buffer" else none
       let info : ImageInfo := { w := p.w, h := p.h, cs := cs, bpc := p.depth.toNat, f := B "FlateDecode", dp := sprintf "/Predictor 15 /Colors %d /BitsPerComponent %d /Columns %d" [.d cv, .d p.depth.toNat, .d p.w], pal := (scanned p rd).pal, trns := (scanned p rd).trns, dpi := (scanned p rd).dpi }
       if p.ct ≥ 4 then
         match inflate (scanned p rd).data with
         | .badHeader => none
         | .badBody => some (info, some "zlib")
         | .ok data => (pngRows (if p.ct = 4 then 2 else 4) p.w data p.h 0).map fun (color, alpha) => ({ info with data := deflate color, smask := some (deflate alpha) }, err)
       else some ({ info with data := (scanned p rd).data }, err)) := by
  have hloop := pngLoop_eq hp rd p.rest p.chunks {} (fun c h => h)
  have herr : (scanned p rd).err = none := by
    unfold scanned
    rw [fold_scan]
  generalize hT : p.chunks.flatMap Chunk.text ++ (be32 0 ++ B "IEND" ++ p.rest) = T at hloop
  have etext : p.text = [0x89, 0x50, 0x4E, 0x47, 0x0D, 0x0A, 0x1A, 0x0A] ++ (be32 13 ++ (B "IHDR" ++ (be32 p.w ++ (be32 p.h ++ (p.depth :: p.ct :: 0 :: 0 :: 0 :: (p.crc ++ T)))))) := by
    rw [← hT]
    unfold Png.text
    simp only [List.append_assoc, List.cons_append, List.nil_append]
  have h8 : ¬ p.depth > 8 := fun h => by
    have h1 := UInt8.le_iff_toNat_le.mp hd
    have h2 := UInt8.lt_iff_toNat_lt.mp h
    omega
  rw [etext]
  unfold parsePng
  rw [take_left' (n := 8) [0x89, 0x50, 0x4E, 0x47, 0x0D, 0x0A, 0x1A, 0x0A] _ rfl, if_neg (by simp), drop_left' (n := 8) [0x89, 0x50, 0x4E, 0x47, 0x0D, 0x0A, 0x1A, 0x0A] _ rfl]
  dsimp only
  rw [drop_left' (n := 4) (be32 13) _ rfl, take_left' (n := 4) (B "IHDR") _ (by decide), if_neg (by simp), drop_left' (n := 4) (B "IHDR") _ (by decide)]
  rw [int32_be32 hp.w.2]
  dsimp only
  rw [int32_be32 hp.h.2]
  unfold readByte
  dsimp only
  rw [if_neg h8, hcs]
  dsimp only
  rw [if_neg (by simp), if_neg (by simp), if_neg (by simp), if_neg (by simp), drop_left' _ _ hp.crc]
  have e0 : ({ err := (Option.orElse (none : Option String) fun _ => Option.orElse none fun _ => none) } : PngScan) = {} := rfl
  rw [e0, hloop]
  dsimp only
  have hs : p.chunks.foldl (addChunk p.ct rd) {} = scanned p rd := rfl
  rw [hs, herr]
  simp only [Int.toNat_natCast, Int.cast_natCast]
  by_cases h4 : p.ct ≥ 4
  · rw [if_pos h4, if_pos h4]
    cases inflate (scanned p rd).data <;> rfl
  · rw [if_neg h4, if_neg h4]

/-- The text that tells a reader of the image how its rows are filtered. -/
def decodeParms (colors bits columns : Nat) : Bytes := B "/Predictor 15 /Colors " ++ decimal colors ++ B " /BitsPerComponent " ++ decimal bits ++ B " /Columns " ++ decimal columns

set_option maxRecDepth 4000 in
theorem decodeParms_eq (cv bits w : Nat) : sprintf "/Predictor 15 /Colors %d /BitsPerComponent %d /Columns %d" [.d cv, .d bits, .d w] = decodeParms cv bits w := by
  have e : sprintf "/Predictor 15 /Colors %d /BitsPerComponent %d /Columns %d" [.d cv, .d bits, .d w] =
      B "/Predictor 15 /Colors " ++ (intDec cv ++ (B " /BitsPerComponent " ++ (intDec bits ++ (B " /Columns " ++ (intDec w ++ []))))) := sprintfB_of_render _ _ _ rfl
  rw [e]
  unfold decodeParms
  simp only [intDec_ofNat, natDec_decimal, List.append_assoc, List.append_nil]

/-- **C30** An image with alpha channel (grey or colour, 8 bits), whatever the filters of its rows and however its data is cut into chunks: the image stored and its mask, read with the
parameters that are stored with them (one byte less to a pixel, and one byte), have at every place the colours and the alpha that the file has there. (`inflate` and `deflate`
are zlib's; `data` is what the file's data inflates to.) -/
theorem C30_alpha (deflate : Bytes → Bytes) (inflate : Bytes → Inflated) (p : Png) (hp : p.Ok) (hd : p.depth = 8) (rd : Bool) (n : Nat) (hn : p.ct = 4 ∧ n = 2 ∨ p.ct = 6 ∧ n = 4) (data : Bytes)
    (hi : inflate (p.the (B "IDAT")).flatten = .ok data) (hl : (1 + n * p.w) * p.h ≤ data.length) :
    ∃ info color alpha, parsePng deflate inflate p.text rd = some (info, none) ∧ info.w = p.w ∧ info.h = p.h ∧ info.bpc = 8 ∧ info.f = B "FlateDecode" ∧
      info.cs = (if p.ct = 4 then B "DeviceGray" else B "DeviceRGB") ∧ info.dp = decodeParms (n - 1) 8 p.w ∧ info.data = deflate color ∧ info.smask = some (deflate alpha) ∧
      color.length = (1 + (n - 1) * p.w) * p.h ∧ alpha.length = (1 + p.w) * p.h ∧
      ∀ r < p.h, ∀ k < p.w,
        (∀ j < n - 1, unfilter (n - 1) ((n - 1) * p.w) color r ((n - 1) * k + j) = unfilter n (n * p.w) data r (n * k + j)) ∧
        unfilter 1 p.w alpha r k = unfilter n (n * p.w) data r (n * k + (n - 1)) := by
  have hcs : pngColorSpace p.ct = some (if p.ct = 4 then B "DeviceGray" else B "DeviceRGB", n - 1) := by
    rcases hn with ⟨h1, rfl⟩ | ⟨h1, rfl⟩ <;> rw [h1] <;> rfl
  have hni : (if p.ct = 4 then B "DeviceGray" else B "DeviceRGB") ≠ B "Indexed" := by split <;> decide
  generalize (if p.ct = 4 then B "DeviceGray" else B "DeviceRGB") = cs at *
  have hct : p.ct ≥ 4 := by rcases hn with ⟨h1, _⟩ | ⟨h1, _⟩ <;> rw [h1] <;> decide
  have hnn : (if p.ct = 4 then 2 else 4) = n := by
    rcases hn with ⟨h1, h2⟩ | ⟨h1, h2⟩ <;> rw [h1, h2] <;> rfl
  have hdata : (scanned p rd).data = (p.the (B "IDAT")).flatten := by
    unfold scanned
    rw [fold_scan]
    show [] ++ _ = _
    rw [List.nil_append]
    rfl
  have he := parse_eq deflate inflate hp (by rw [hd]; exact Nat.le_refl _) rd hcs
  rw [hdata, hi, if_pos hct, hnn] at he
  obtain ⟨color, alpha, h1, c1, c2, l1, l2⟩ := pngRows_channels n p.w p.h (by omega) data hl
  dsimp only at he
  rw [h1, Option.map_some] at he
  rw [if_neg (fun h : cs = B "Indexed" ∧ _ => hni h.1), decodeParms_eq, hd] at he
  refine ⟨_, color, alpha, he, rfl, rfl, rfl, rfl, rfl, rfl, rfl, rfl, l1, by rw [l2, Nat.one_mul], fun r hr k hk => ⟨fun j hj => ?_, ?_⟩⟩
  · have := c1.unfilter _ r k j rfl hr hk hj
    rw [Nat.add_zero] at this
    exact this
  · have := c2.unfilter _ r k 0 rfl hr hk (by omega)
    rw [Nat.one_mul, Nat.one_mul, Nat.add_zero, Nat.add_zero] at this
    exact this

/-- The transparent colour: of grey and colour images the samples of that colour (the low bytes), of images with a palette the first fully transparent entry. -/
def transparent (ct : UInt8) (t : Bytes) : List Int :=
  if ct = 0 then [((t.getD 1 0).toNat : Int)]
  else if ct = 2 then [((t.getD 1 0).toNat : Int), ((t.getD 3 0).toNat : Int), ((t.getD 5 0).toNat : Int)]
  else if 0 ∈ t then [((t.takeWhile (· ≠ 0)).length : Int)] else []

/-- The resolution in dots per inch: 72 if the file has none or a different one for each direction, or if it is not asked for. -/
def resolution (rd : Bool) (x y : Nat) (u : UInt8) : Rat := if rd = true ∧ x = y then (if u = 1 then (x : Rat) / (393701 / 10000) else x) else 72

theorem dpi_one (rd : Bool) (x y : Nat) (u : UInt8) (hx : x < 2 ^ 31) (hy : y < 2 ^ 31) : dpiOf rd 72 (be32 x ++ be32 y ++ [u]) = resolution rd x y u := by
  have e1 : readBeInt32 (be32 x ++ be32 y ++ [u]) = ((x : Int), be32 y ++ [u], none) := by rw [List.append_assoc]; exact int32_be32 hx _
  have e2 : readBeInt32 ((be32 x ++ be32 y ++ [u]).drop 4) = ((y : Int), [u], none) := by
    have : (be32 x ++ be32 y ++ [u]).drop 4 = be32 y ++ [u] := by rw [List.append_assoc]; exact drop_left' _ _ rfl
    rw [this]; exact int32_be32 hy _
  have e3 : (be32 x ++ be32 y ++ [u]).getD 8 0 = u := by
    rw [List.getD_eq_getElem?_getD, List.getElem?_append_right (by simp [be32])]
    simp [be32]
  unfold dpiOf resolution
  rw [e1, e2, e3]
  generalize (393701 / 10000 : Rat) = c
  dsimp only
  by_cases hc : rd = true ∧ x = y
  · rw [if_pos hc, if_pos ⟨by rw [hc.2], hc.1⟩, Int.cast_natCast]
  · rw [if_neg hc, if_neg (fun h => hc ⟨h.2, by exact_mod_cast h.1⟩)]

/-- **C31** An image without alpha channel: all its data chunks, in order, its palette, its transparent colour and its resolution are read, and other chunks make no difference. -/
theorem C31_read (deflate : Bytes → Bytes) (inflate : Bytes → Inflated) (p : Png) (hp : p.Ok) (hd : p.depth ≤ 8) (hct : p.ct = 0 ∨ p.ct = 2 ∨ p.ct = 3) (rd : Bool)
    (hpal : p.ct = 3 → ∃ c, p.last (B "PLTE") = some c ∧ c ≠ []) :
    ∃ info, parsePng deflate inflate p.text rd = some (info, none) ∧ info.w = p.w ∧ info.h = p.h ∧ info.bpc = p.depth.toNat ∧ info.f = B "FlateDecode" ∧
      info.cs = (if p.ct = 3 then B "Indexed" else if p.ct = 0 then B "DeviceGray" else B "DeviceRGB") ∧ info.dp = decodeParms (if p.ct = 2 then 3 else 1) p.depth.toNat p.w ∧
      info.data = (p.the (B "IDAT")).flatten ∧ info.smask = none ∧ info.pal = (p.last (B "PLTE")).getD [] ∧
      (p.the (B "tRNS") = [] → info.trns = []) ∧ (∀ t, p.the (B "tRNS") = [t] → info.trns = transparent p.ct t) ∧
      (p.the (B "pHYs") = [] → info.dpi = 72) ∧
      (∀ x y u, x < 2 ^ 31 → y < 2 ^ 31 → p.the (B "pHYs") = [be32 x ++ be32 y ++ [u]] → info.dpi = resolution rd x y u) := by
  have hcs : pngColorSpace p.ct = some (if p.ct = 3 then B "Indexed" else if p.ct = 0 then B "DeviceGray" else B "DeviceRGB", if p.ct = 2 then 3 else 1) := by
    rcases hct with h | h | h <;> rw [h] <;> rfl
  have hix : (if p.ct = 3 then B "Indexed" else if p.ct = 0 then B "DeviceGray" else B "DeviceRGB") = B "Indexed" → p.ct = 3 := by
    intro h1
    by_contra hne
    rw [if_neg hne] at h1
    split at h1 <;> exact absurd h1 (by decide)
  generalize (if p.ct = 3 then B "Indexed" else if p.ct = 0 then B "DeviceGray" else B "DeviceRGB") = cs at *
  have hlt : ¬ p.ct ≥ 4 := by rcases hct with h | h | h <;> rw [h] <;> decide
  have he := parse_eq deflate inflate hp hd rd hcs
  rw [if_neg hlt, decodeParms_eq] at he
  have hsc : scanned p rd = { pal := (p.the (B "PLTE")).foldl (fun _ d => d) [], trns := (p.the (B "tRNS")).foldl (fun o d => trnsOf p.ct d o) [], data := (p.the (B "IDAT")).flatten, dpi := (p.the (B "pHYs")).foldl (dpiOf rd) 72, err := none } := by
    unfold scanned
    rw [fold_scan]
    simp only [List.nil_append]
    rfl
  have hp2 : (scanned p rd).pal = (p.last (B "PLTE")).getD [] := by
    rw [hsc]
    show (p.the (B "PLTE")).foldl (fun _ d => d) [] = ((p.the (B "PLTE")).getLast?).getD []
    generalize p.the (B "PLTE") = l
    have key : ∀ (l : List Bytes) (a : Bytes), l.foldl (fun _ d => d) a = l.getLast?.getD a := by
      intro l
      induction l with
      | nil => intro a; rfl
      | cons c l ih =>
        intro a
        rw [List.foldl_cons, ih]
        cases l with
        | nil => rfl
        | cons d l => 
          obtain ⟨x, hx⟩ : ∃ x, (d :: l).getLast? = some x := ⟨_, List.getLast?_eq_some_getLast (by simp)⟩
          rw [List.getLast?_cons_cons, hx]
          rfl
    exact key l []
  have hbad : ¬ (cs = B "Indexed" ∧ (scanned p rd).pal.length = 0) := by
    rintro ⟨h1, h2⟩
    obtain ⟨c, hc1, hc2⟩ := hpal (hix h1)
    rw [hp2, hc1] at h2
    exact hc2 (List.length_eq_zero_iff.mp h2)
  dsimp only at he
  rw [if_neg hbad] at he
  refine ⟨_, he, ?_⟩
  dsimp only
  have q1 : (scanned p rd).data = (p.the (B "IDAT")).flatten := by rw [hsc]
  have q2 : (scanned p rd).trns = (p.the (B "tRNS")).foldl (fun o d => trnsOf p.ct d o) [] := by rw [hsc]
  have q3 : (scanned p rd).dpi = (p.the (B "pHYs")).foldl (dpiOf rd) 72 := by rw [hsc]
  clear he hsc
  rw [q1, q2, q3]
  generalize decodeParms (if p.ct = 2 then 3 else 1) p.depth.toNat p.w = dp
  refine ⟨rfl, rfl, rfl, rfl, rfl, rfl, rfl, rfl, hp2, fun h => ?_, fun t h => ?_, fun h => ?_, fun x y u hx hy h => ?_⟩
  · rw [h]; rfl
  · rw [h]; rfl
  · rw [h]; rfl
  · rw [h]
    rw [List.foldl_cons, List.foldl_nil]
    exact dpi_one rd x y u hx hy

/-! ### Cases -/

/-- A grey image with alpha, two by two, rows with filters Paeth and Average, data in two chunks, with a comment. -/
def grey2 : Png := { w := 2, h := 2, depth := 8, ct := 4, crc := [1, 2, 3, 4], rest := [], chunks := [⟨B "tEXt", B "hi", [0, 0, 0, 0]⟩, ⟨B "IDAT", [4, 10, 200, 5], [0, 0, 0, 0]⟩,
  ⟨B "IDAT", [56, 3, 1, 2, 3, 4], [0, 0, 0, 0]⟩] }

example : grey2.Ok := ⟨by decide, by decide, by decide, by unfold Chunk.Ok; decide, by decide, by
  intro c hc h
  exfalso
  revert h
  revert c
  decide⟩
example : (grey2.the (B "IDAT")).flatten = [4, 10, 200, 5, 56, 3, 1, 2, 3, 4] ∧ (1 + 2 * grey2.w) * grey2.h ≤ 10 := by decide
example : (parsePng id Inflated.ok grey2.text false).map (fun x => (x.1.data, x.1.smask, x.1.cs)) = some ([4, 10, 5, 3, 1, 3], some [4, 200, 56, 3, 2, 4], B "DeviceGray") := by decide +kernel
example : unfilter 2 4 [4, 10, 200, 5, 56, 3, 1, 2, 3, 4] 1 2 = 13 ∧ unfilter 1 2 [4, 10, 5, 3, 1, 3] 1 1 = 13 := by decide +kernel

/-- An image with a palette, a transparent entry and a resolution. -/
def pal1 : Png := { w := 1, h := 1, depth := 8, ct := 3, crc := [1, 2, 3, 4], rest := [9], chunks := [⟨B "PLTE", [1, 2, 3, 4, 5, 6], [0, 0, 0, 0]⟩, ⟨B "tRNS", [255, 0], [0, 0, 0, 0]⟩,
  ⟨B "pHYs", be32 3000 ++ be32 3000 ++ [1], [0, 0, 0, 0]⟩, ⟨B "IDAT", [7, 7], [0, 0, 0, 0]⟩] }

example : pal1.Ok := ⟨by decide, by decide, by decide, by unfold Chunk.Ok; decide, by decide, by
  intro c hc h
  refine ⟨3000, 3000, 1, by decide, by decide, ?_⟩
  revert h
  revert c
  decide⟩
example : pal1.ct = 3 → ∃ c, pal1.last (B "PLTE") = some c ∧ c ≠ [] := fun _ => ⟨[1, 2, 3, 4, 5, 6], by decide, by decide⟩
example : (parsePng id Inflated.ok pal1.text true).map (fun x => (x.1.data, x.1.pal, x.1.trns)) = some ([7, 7], [1, 2, 3, 4, 5, 6], [1]) := by decide +kernel

/-- **C31** refuted for files with an empty chunk, which the standard allows: what follows it is silently not read. Here the image data is in two chunks with an empty one between them. -/
theorem C31_empty_false : let p : Png := { w := 1, h := 1, depth := 8, ct := 0, crc := [1, 2, 3, 4], rest := [], chunks := [⟨B "IDAT", [1], [0, 0, 0, 0]⟩, ⟨B "IDAT", [], [0, 0, 0, 0]⟩,
      ⟨B "IDAT", [2], [0, 0, 0, 0]⟩] }
    (p.the (B "IDAT")).flatten = [1, 2] ∧ (parsePng id Inflated.ok p.text false).map (fun x => (x.1.data, x.2)) = some ([1], none) := by decide +kernel

/-- **C31** Damaged files are not always reported: a palette with a negative length, a short transparency chunk, a file cut off in the resolution chunk or a bad zlib header
make the library panic. -/
theorem C31_damaged_false (deflate : Bytes → Bytes) (inflate : Bytes → Inflated) (hz : inflate [] = .badHeader) :
    let head (ct : UInt8) : Bytes := [0x89, 0x50, 0x4E, 0x47, 0x0D, 0x0A, 0x1A, 0x0A] ++ be32 13 ++ B "IHDR" ++ be32 1 ++ be32 1 ++ [8, ct, 0, 0, 0] ++ [0, 0, 0, 0]
    (parsePng id Inflated.ok (head 3 ++ [255, 255, 255, 255] ++ B "PLTE") false).isNone = true ∧ (parsePng id Inflated.ok (head 0 ++ be32 1 ++ B "tRNS" ++ [0]) false).isNone = true ∧
    (parsePng id Inflated.ok (head 0 ++ be32 9 ++ B "pHYs" ++ be32 1 ++ be32 1) false).isNone = true ∧ parsePng deflate inflate (head 6 ++ be32 0 ++ B "IEND") false = none := by
  refine ⟨by decide +kernel, by decide +kernel, by decide +kernel, ?_⟩
  have h := parse_eq deflate inflate (p := { w := 1, h := 1, depth := 8, ct := 6, crc := [0, 0, 0, 0], rest := [], chunks := [] })
    ⟨by decide, by decide, by decide, by simp, by simp, by simp⟩ (by decide) false (cs := B "DeviceRGB") (cv := 3) (by decide)
  have e : (scanned { w := 1, h := 1, depth := 8, ct := 6, crc := [0, 0, 0, 0], rest := [], chunks := [] } false).data = [] := rfl
  rw [e, hz] at h
  exact h

end Verif.Props
