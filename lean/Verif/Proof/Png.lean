import Verif.Spec.Png
import Verif.Model.Png
import Mathlib.Tactic.ByContra
import Mathlib.Tactic.Ring
/-
PNG files: separation of the alpha channel, and the chunks.
-/
namespace Verif.Proof
open Verif Verif.Model Verif.Spec

/-! ### Filters, channel by channel -/

/-- `sub` has bytes `o` to `o + m` of every pixel of `data`, with the same filter types. -/
structure Channel (m n o w h : Nat) (sub data : Bytes) : Prop where
  le : o + m ≤ n
  pos : 0 < m
  type : ∀ r < h, sub.getD ((1 + m * w) * r) 0 = data.getD ((1 + n * w) * r) 0
  byte : ∀ r < h, ∀ k < w, ∀ j < m, sub.getD ((1 + m * w) * r + 1 + (m * k + j)) 0 = data.getD ((1 + n * w) * r + 1 + (n * k + o + j)) 0

theorem Channel.unfilter {m n o w h : Nat} {sub data : Bytes} (c : Channel m n o w h sub data) : ∀ s r k j, r + k = s → r < h → k < w → j < m →
    Spec.unfilter m (m * w) sub r (m * k + j) = Spec.unfilter n (n * w) data r (n * k + o + j) := by
  have hm := c.pos
  have hl := c.le
  intro s
  induction s using Nat.strongRecOn with
  | _ s ih =>
    intro r k j hs hr hk hj
    rw [Spec.unfilter.eq_def m, Spec.unfilter.eq_def n, c.type r hr, c.byte r hr k hk j hj]
    have e1 : (m * k + j < m ∨ m = 0) ↔ k = 0 := by
      constructor
      · rintro (h | h)
        · by_contra h0
          have : m * 1 ≤ m * k := Nat.mul_le_mul_left m (by omega)
          omega
        · omega
      · rintro rfl; left; omega
    have e2 : (n * k + o + j < n ∨ n = 0) ↔ k = 0 := by
      constructor
      · rintro (h | h)
        · by_contra h0
          have : n * 1 ≤ n * k := Nat.mul_le_mul_left n (by omega)
          omega
        · omega
      · rintro rfl; left; omega
    congr 1
    have pre : ∀ r', r' + k ≤ s → r' < h → (k ≠ 0 → Spec.unfilter m (m * w) sub r' (m * k + j - m) = Spec.unfilter n (n * w) data r' (n * k + o + j - n)) := by
      intro r' hs' hr' hk0
      have a1 : m * k = m * (k - 1) + m := by
        have : k = k - 1 + 1 := by omega
        calc m * k = m * (k - 1 + 1) := by rw [← this]
          _ = m * (k - 1) + m := by ring
      have a2 : n * k = n * (k - 1) + n := by
        have : k = k - 1 + 1 := by omega
        calc n * k = n * (k - 1 + 1) := by rw [← this]
          _ = n * (k - 1) + n := by ring
      rw [show m * k + j - m = m * (k - 1) + j by omega, show n * k + o + j - n = n * (k - 1) + o + j by omega]
      exact ih (r' + (k - 1)) (by omega) r' (k - 1) j rfl hr' (by omega) hj
    congr 1
    · by_cases h0 : k = 0
      · rw [if_pos (e1.mpr h0), if_pos (e2.mpr h0)]
      · rw [if_neg (fun h => h0 (e1.mp h)), if_neg (fun h => h0 (e2.mp h))]
        exact pre r (by omega) hr h0
    · by_cases h0 : r = 0
      · rw [if_pos h0, if_pos h0]
      · rw [if_neg h0, if_neg h0]
        exact ih (r - 1 + k) (by omega) (r - 1) k j rfl (by omega) hk hj
    · by_cases h0 : r = 0
      · rw [if_pos (.inl h0), if_pos (.inl h0)]
      · by_cases h1 : k = 0
        · rw [if_pos (.inr (e1.mpr h1)), if_pos (.inr (e2.mpr h1))]
        · rw [if_neg (fun h => h.elim h0 (fun h => h1 (e1.mp h))), if_neg (fun h => h.elim h0 (fun h => h1 (e2.mp h)))]
          exact pre (r - 1) (by omega) (by omega) h1

/-! ### The loops -/

/-- The bytes `o` to `o + m` of the pixel at `pos`. -/
def pixel (data : Bytes) (m pos : Nat) : Bytes := (List.range m).map fun j => data.getD (pos + j) 0

theorem byteAt_nat (data : Bytes) (i : Nat) (h : i < data.length) : byteAt data (i : Int) = some (data.getD i 0) := by
  unfold byteAt
  rw [if_neg (by omega), Int.toNat_natCast, List.getElem?_eq_getElem h, List.getD_eq_getElem?_getD, List.getElem?_eq_getElem h]
  rfl

theorem mapM_some {α β : Type} (l : List α) (f : α → Option β) (g : α → β) (h : ∀ a ∈ l, f a = some (g a)) : l.mapM f = some (l.map g) := by
  induction l with
  | nil => rfl
  | cons a l ih =>
    rw [List.mapM_cons, h a (by simp), ih (fun b hb => h b (by simp [hb]))]
    rfl

theorem pngPixels_eq (n : Nat) (hn : 0 < n) (data : Bytes) : ∀ k pos : Nat, pos + n * k ≤ data.length →
    pngPixels n data k (pos : Int) = some ((List.range k).flatMap fun i => pixel data (n - 1) (pos + n * i), (List.range k).map fun i => data.getD (pos + n * i + (n - 1)) 0) := by
  intro k
  induction k with
  | zero => intro pos _; rfl
  | succ k ih =>
    intro pos h
    rw [Nat.mul_succ] at h
    rw [pngPixels, mapM_some _ _ (fun j => data.getD (pos + j) 0) (fun j hj => by
      have := List.mem_range.mp hj
      exact byteAt_nat data (pos + j) (by omega))]
    show (byteAt data ((pos : Int) + ((n - 1 : Nat) : Int)) >>= _) = _
    rw [show (pos : Int) + ((n - 1 : Nat) : Int) = ((pos + (n - 1) : Nat) : Int) by omega, byteAt_nat data _ (by omega)]
    show Option.map _ (pngPixels n data k ((pos : Int) + (n : Int))) = _
    rw [show (pos : Int) + (n : Int) = ((pos + n : Nat) : Int) by omega, ih (pos + n) (by omega)]
    rw [List.range_succ_eq_map]
    simp only [Option.map_some, List.flatMap_cons, List.map_cons, List.flatMap_map, List.map_map, Nat.mul_zero, Nat.add_zero]
    congr 2
    · show pixel data (n - 1) pos ++ _ = _
      congr 1
      congr 1
      funext i
      rw [Nat.mul_succ]
      congr 1
      omega
    · congr 1
      refine List.map_congr_left (fun i _ => ?_)
      show data.getD (pos + n + n * i + (n - 1)) 0 = data.getD (pos + n * (i + 1) + (n - 1)) 0
      rw [Nat.mul_succ]
      congr 1
      omega

/-- The colours of row `i`, after its filter type. -/
def colorRow (n w : Nat) (data : Bytes) (i : Nat) : Bytes :=
  data.getD ((1 + n * w) * i) 0 :: (List.range w).flatMap fun k => pixel data (n - 1) ((1 + n * w) * i + 1 + n * k)
def alphaRow (n w : Nat) (data : Bytes) (i : Nat) : Bytes :=
  data.getD ((1 + n * w) * i) 0 :: (List.range w).map fun k => data.getD ((1 + n * w) * i + 1 + n * k + (n - 1)) 0

theorem pngRows_eq (n w : Nat) (hn : 0 < n) (data : Bytes) : ∀ rows i : Nat, (1 + n * w) * (i + rows) ≤ data.length →
    pngRows n (w : Int) data rows i = some ((List.range rows).flatMap (fun r => colorRow n w data (i + r)), (List.range rows).flatMap fun r => alphaRow n w data (i + r)) := by
  intro rows
  induction rows with
  | zero => intro i _; rfl
  | succ rows ih =>
    intro i h
    have hl : (1 + n * w) * i + (1 + n * w) ≤ data.length := by
      have h1 : (1 + n * w) * (i + 1) ≤ (1 + n * w) * (i + (rows + 1)) := Nat.mul_le_mul_left _ (by omega)
      have h2 : (1 + n * w) * (i + 1) = (1 + n * w) * i + (1 + n * w) := by ring
      omega
    rw [pngRows]
    dsimp only
    have e0 : ((1 + (n : Int) * (w : Int)) * ((i : Nat) : Int)) = (((1 + n * w) * i : Nat) : Int) := by push_cast; ring
    rw [e0, byteAt_nat data _ (by omega)]
    show (pngPixels n data (Int.toNat (w : Int)) ((((1 + n * w) * i : Nat) : Int) + 1) >>= _) = _
    rw [Int.toNat_natCast, show ((((1 + n * w) * i : Nat) : Int) + 1) = (((1 + n * w) * i + 1 : Nat) : Int) by omega, pngPixels_eq n hn data w _ (by omega)]
    show Option.map _ (pngRows n (w : Int) data rows (i + 1)) = _
    rw [ih (i + 1) (by rw [show i + 1 + rows = i + (rows + 1) by omega]; exact h)]
    rw [List.range_succ_eq_map]
    simp only [Option.map_some, List.flatMap_cons, List.flatMap_map, Nat.add_zero]
    have e1 : ∀ r, i + 1 + r = i + (r + 1) := fun r => by omega
    simp only [e1]
    rfl

theorem flatMap_getD {L : Nat} (f : Nat → Bytes) (hf : ∀ i, (f i).length = L) : ∀ h r i : Nat, r < h → i < L → ((List.range h).flatMap f).getD (L * r + i) 0 = (f r).getD i 0 := by
  intro h
  induction h with
  | zero => intro r i hr; omega
  | succ h ih =>
    intro r i hr hi
    rw [List.range_succ, List.flatMap_append]
    have hlen : ((List.range h).flatMap f).length = L * h := by
      clear ih hr
      induction h with
      | zero => rfl
      | succ h ih => rw [List.range_succ, List.flatMap_append, List.length_append, ih, List.flatMap_cons, List.flatMap_nil, List.append_nil, hf, Nat.mul_succ]
    by_cases hr2 : r < h
    · have : L * (r + 1) ≤ L * h := Nat.mul_le_mul_left L (by omega)
      rw [Nat.mul_succ] at this
      rw [List.getD_eq_getElem?_getD, List.getElem?_append_left (by omega), ← List.getD_eq_getElem?_getD]
      exact ih r i hr2 hi
    · have : r = h := by omega
      subst this
      rw [List.getD_eq_getElem?_getD, List.getElem?_append_right (by omega), hlen, Nat.add_sub_cancel_left, List.flatMap_cons, List.flatMap_nil, List.append_nil,
        ← List.getD_eq_getElem?_getD]

theorem pixel_len (data : Bytes) (m pos : Nat) : (pixel data m pos).length = m := by unfold pixel; simp

theorem flatMap_len {L : Nat} (f : Nat → Bytes) (hf : ∀ i, (f i).length = L) (h : Nat) : ((List.range h).flatMap f).length = L * h := by
  induction h with
  | zero => rfl
  | succ h ih => rw [List.range_succ, List.flatMap_append, List.length_append, ih, List.flatMap_cons, List.flatMap_nil, List.append_nil, hf, Nat.mul_succ]

theorem colorRow_len (n w : Nat) (data : Bytes) (i : Nat) : (colorRow n w data i).length = 1 + (n - 1) * w := by
  unfold colorRow
  rw [List.length_cons, flatMap_len _ (fun k => pixel_len data (n - 1) _), Nat.add_comm]
theorem alphaRow_len (n w : Nat) (data : Bytes) (i : Nat) : (alphaRow n w data i).length = 1 + 1 * w := by
  unfold alphaRow
  rw [List.length_cons, List.length_map, List.length_range]
  omega

/-- Separation gives the channels. -/
theorem pngRows_channels (n w h : Nat) (hn : 2 ≤ n) (data : Bytes) (hl : (1 + n * w) * h ≤ data.length) :
    ∃ color alpha, pngRows n (w : Int) data h 0 = some (color, alpha) ∧ Channel (n - 1) n 0 w h color data ∧ Channel 1 n (n - 1) w h alpha data ∧
      color.length = (1 + (n - 1) * w) * h ∧ alpha.length = (1 + 1 * w) * h := by
  refine ⟨_, _, pngRows_eq n w (by omega) data h 0 (by simpa using hl), ⟨by omega, by omega, ?_, ?_⟩, ⟨by omega, by omega, ?_, ?_⟩, ?_, ?_⟩
  · intro r hr
    have := flatMap_getD (fun r => colorRow n w data (0 + r)) (fun i => colorRow_len n w data _) h r 0 hr (by omega)
    rw [Nat.add_zero] at this
    rw [this, Nat.zero_add]
    rfl
  · intro r hr k hk j hj
    have hb : 1 + ((n - 1) * k + j) < 1 + (n - 1) * w := by
      have : (n - 1) * (k + 1) ≤ (n - 1) * w := Nat.mul_le_mul_left _ (by omega)
      rw [Nat.mul_succ] at this
      omega
    have := flatMap_getD (fun r => colorRow n w data (0 + r)) (fun i => colorRow_len n w data _) h r (1 + ((n - 1) * k + j)) hr hb
    rw [← Nat.add_assoc] at this
    rw [this, Nat.zero_add]
    unfold colorRow
    rw [Nat.add_comm 1 ((n - 1) * k + j), List.getD_cons_succ, flatMap_getD _ (fun k => pixel_len data (n - 1) _) w k j hk hj]
    unfold pixel
    rw [List.getD_eq_getElem?_getD, List.getElem?_map, List.getElem?_range hj]
    show data.getD ((1 + n * w) * r + 1 + n * k + j) 0 = _
    congr 1
    omega
  · intro r hr
    have := flatMap_getD (fun r => alphaRow n w data (0 + r)) (fun i => alphaRow_len n w data _) h r 0 hr (by omega)
    rw [Nat.add_zero] at this
    rw [this, Nat.zero_add]
    rfl
  · intro r hr k hk j hj
    have hj0 : j = 0 := by omega
    subst hj0
    have := flatMap_getD (fun r => alphaRow n w data (0 + r)) (fun i => alphaRow_len n w data _) h r (1 + (1 * k + 0)) hr (by omega)
    rw [← Nat.add_assoc] at this
    rw [this, Nat.zero_add]
    unfold alphaRow
    rw [Nat.add_comm 1 (1 * k + 0), List.getD_cons_succ, List.getD_eq_getElem?_getD, List.getElem?_map, Nat.one_mul, Nat.add_zero, List.getElem?_range hk]
    show data.getD ((1 + n * w) * r + 1 + n * k + (n - 1)) 0 = data.getD ((1 + n * w) * r + 1 + (n * k + (n - 1) + 0)) 0
    congr 1
    omega
  · exact flatMap_len _ (fun i => colorRow_len n w data _) h
  · exact flatMap_len _ (fun i => alphaRow_len n w data _) h

/-! ### The chunks -/

theorem int32_be32 {n : Nat} (h : n < 2 ^ 31) (r : Bytes) : readBeInt32 (be32 n ++ r) = ((n : Int), r, none) := by
  show (int32Of _ _ _ _, r, none) = _
  unfold int32Of
  dsimp only
  have e : (UInt8.ofNat (n / 16777216)).toNat * 16777216 + (UInt8.ofNat (n / 65536)).toNat * 65536 + (UInt8.ofNat (n / 256)).toNat * 256 + (UInt8.ofNat n).toNat = n := by
    simp only [UInt8.toNat_ofNat']
    omega
  rw [e, if_pos (by omega)]

theorem take_left' {α : Type} (a b : List α) {n : Nat} (h : a.length = n) : (a ++ b).take n = a := by rw [← h]; exact List.take_left
theorem drop_left' {α : Type} (a b : List α) {n : Nat} (h : a.length = n) : (a ++ b).drop n = b := by rw [← h]; exact List.drop_left

theorem bufNext_exact (d r : Bytes) : bufNext (d.length : Int) (d ++ r) = some (d, r) := by
  unfold bufNext
  rw [if_neg (by omega), Int.toNat_natCast, List.take_left, List.drop_left]

/-- The transparent colour that a chunk tRNS declares. -/
def trnsOf (ct : UInt8) (t : Bytes) (old : List Int) : List Int :=
  if ct = 0 then [((t.getD 1 0).toNat : Int)]
  else if ct = 2 then [((t.getD 1 0).toNat : Int), ((t.getD 3 0).toNat : Int), ((t.getD 5 0).toNat : Int)]
  else if 0 ∈ t then [((t.takeWhile (· ≠ 0)).length : Int)] else old

theorem pngTrns_eq {ct : UInt8} {t : Bytes} (old : List Int) (h0 : ct = 0 → t.length = 2) (h2 : ct = 2 → t.length = 6) : pngTrns ct t old = some (trnsOf ct t old) := by
  unfold pngTrns trnsOf
  by_cases c0 : ct = 0
  · rw [if_pos c0, if_pos c0]
    have hl := h0 c0
    match t, hl with
    | [a, b], _ => rfl
  rw [if_neg c0, if_neg c0]
  by_cases c2 : ct = 2
  · rw [if_pos c2, if_pos c2]
    have hl := h2 c2
    match t, hl with
    | [a, b, c, d, e, f], _ => rfl
  rw [if_neg c2, if_neg c2]

/-- What one chunk adds to what was read. -/
def addChunk (ct : UInt8) (readdpi : Bool) (s : PngScan) (c : Chunk) : PngScan :=
  if c.type = B "PLTE" then { s with pal := c.data }
  else if c.type = B "tRNS" then { s with trns := trnsOf ct c.data s.trns }
  else if c.type = B "IDAT" then { s with data := s.data ++ c.data }
  else if c.type = B "pHYs" then
    let x := (readBeInt32 c.data).1
    let y := (readBeInt32 (c.data.drop 4)).1
    { s with dpi := if x = y ∧ readdpi then (if c.data.getD 8 0 = 1 then (x : Rat) / (393701 / 10000) else x) else s.dpi }
  else s

theorem pngChunk_eq {p : Png} (hp : p.Ok) {c : Chunk} (hc : c ∈ p.chunks) (rd : Bool) (s : PngScan) (r : Bytes) :
    pngChunk p.ct rd s (c.data.length : Int) (c.type ++ c.data ++ c.crc ++ r) = some (addChunk p.ct rd s c, r, false) := by
  obtain ⟨⟨t4, crc4, _⟩, _, hne⟩ := hp.chunk c hc
  have ht := hp.trns c hc
  have hph := hp.phys c hc
  obtain ⟨type, data, crc⟩ := c
  dsimp only at *
  unfold pngChunk addChunk
  dsimp only
  have e1 : (type ++ data ++ crc ++ r).take 4 = type := by
    rw [List.append_assoc, List.append_assoc]
    exact take_left' _ _ t4
  have e2 : (type ++ data ++ crc ++ r).drop 4 = data ++ (crc ++ r) := by
    rw [List.append_assoc, List.append_assoc]
    exact drop_left' _ _ t4
  have e3 : (crc ++ r).drop 4 = r := drop_left' _ _ crc4
  rw [e1, e2]
  by_cases h1 : type = B "PLTE"
  · rw [if_pos h1, if_pos h1, bufNext_exact, Option.map_some, e3]
  rw [if_neg h1, if_neg h1]
  by_cases h2 : type = B "tRNS"
  · rw [if_pos h2, if_pos h2, bufNext_exact, Option.bind_some]
    dsimp only
    rw [pngTrns_eq _ (ht h2).1 (ht h2).2, Option.map_some, e3]
  rw [if_neg h2, if_neg h2]
  by_cases h3 : type = B "IDAT"
  · rw [if_pos h3, if_pos h3, bufNext_exact, Option.map_some, e3]
  rw [if_neg h3, if_neg h3, if_neg hne]
  by_cases h4 : type = B "pHYs"
  · rw [if_pos h4, if_pos h4]
    obtain ⟨x, y, u, hx, hy, hd⟩ := hph h4
    subst hd
    have d1 : be32 x ++ be32 y ++ [u] ++ (crc ++ r) = be32 x ++ (be32 y ++ (u :: (crc ++ r))) := by simp
    have d2 : be32 x ++ be32 y ++ [u] = be32 x ++ (be32 y ++ [u]) := by simp
    have d3 : (be32 x ++ (be32 y ++ [u])).drop 4 = be32 y ++ [u] := rfl
    have d4 : (be32 x ++ (be32 y ++ [u])).getD 8 0 = u := rfl
    rw [d1, d2, d3, d4, int32_be32 hx, int32_be32 hy, int32_be32 hx, int32_be32 hy]
    dsimp only
    rw [e3]
    rfl
  · rw [if_neg h4, if_neg h4]
    have : (data.length : Int) + 4 = ((data ++ crc).length : Int) := by simp [crc4]
    rw [this, ← List.append_assoc, bufNext_exact, Option.map_some]

theorem pngLoop_eq {p : Png} (hp : p.Ok) (rd : Bool) (tail : Bytes) : ∀ (l : List Chunk) (s : PngScan), (∀ c ∈ l, c ∈ p.chunks) →
    pngLoop p.ct rd s (l.flatMap Chunk.text ++ (be32 0 ++ B "IEND" ++ tail)) = some (l.foldl (addChunk p.ct rd) s) := by
  intro l
  induction l with
  | nil =>
    intro s _
    rw [List.flatMap_nil, List.nil_append, List.append_assoc, pngLoop.eq_def, int32_be32 (by omega)]
    have e : pngChunk p.ct rd { s with err := (Option.orElse (none : Option String) fun _ => s.err) } ((0 : Nat) : Int) (B "IEND" ++ tail) = some (s, tail, true) := by
      unfold pngChunk
      dsimp only
      rw [take_left' _ _ (by decide), drop_left' _ _ (by decide), if_neg (by decide), if_neg (by decide), if_neg (by decide), if_pos rfl]
      rfl
    dsimp only
    split
    · rename_i h; rw [e] at h; cases h
    · rename_i s' b iend h
      rw [e] at h
      cases h
      rw [dif_neg (by simp)]
      rfl
  | cons c l ih =>
    intro s hl
    have hc := hl c (by simp)
    obtain ⟨⟨_, _, hlen⟩, hne, _⟩ := hp.chunk c hc
    have e0 : (c :: l).flatMap Chunk.text ++ (be32 0 ++ B "IEND" ++ tail) = be32 c.data.length ++ (c.type ++ c.data ++ c.crc ++ (l.flatMap Chunk.text ++ (be32 0 ++ B "IEND" ++ tail))) := by
      rw [List.flatMap_cons]
      unfold Chunk.text
      simp only [List.append_assoc]
    rw [e0, pngLoop.eq_def, int32_be32 hlen]
    have e := pngChunk_eq hp hc rd s (l.flatMap Chunk.text ++ (be32 0 ++ B "IEND" ++ tail))
    have es : ({ s with err := (Option.orElse (none : Option String) fun _ => s.err) } : PngScan) = s := rfl
    dsimp only
    rw [es]
    split
    · rename_i h; rw [e] at h; cases h
    · rename_i s' b iend h
      rw [e] at h
      cases h
      have := List.length_pos_iff.mpr hne
      rw [dif_pos ⟨rfl, by omega⟩]
      exact ih _ (fun c hc => hl c (by simp [hc]))

/-- The data of the chunks of a type. -/
def ofType (l : List Chunk) (type : Bytes) : List Bytes := (l.filter fun c => c.type = type).map (·.data)

/-- The resolution a chunk pHYs declares. -/
def dpiOf (rd : Bool) (old : Rat) (d : Bytes) : Rat :=
  if (readBeInt32 d).1 = (readBeInt32 (d.drop 4)).1 ∧ rd then (if d.getD 8 0 = 1 then ((readBeInt32 d).1 : Rat) / (393701 / 10000) else (readBeInt32 d).1) else old

theorem fold_scan (ct : UInt8) (rd : Bool) : ∀ (l : List Chunk) (s : PngScan), l.foldl (addChunk ct rd) s =
    { pal := (ofType l (B "PLTE")).foldl (fun _ d => d) s.pal, trns := (ofType l (B "tRNS")).foldl (fun o d => trnsOf ct d o) s.trns,
      data := s.data ++ (ofType l (B "IDAT")).flatten, dpi := (ofType l (B "pHYs")).foldl (dpiOf rd) s.dpi, err := s.err } := by
  intro l
  induction l with
  | nil => intro s; simp [ofType]
  | cons c l ih =>
    intro s
    rw [List.foldl_cons, ih]
    unfold addChunk
    have d1 : B "PLTE" ≠ B "tRNS" := by decide
    have d2 : B "PLTE" ≠ B "IDAT" := by decide
    have d3 : B "PLTE" ≠ B "pHYs" := by decide
    have d4 : B "tRNS" ≠ B "IDAT" := by decide
    have d5 : B "tRNS" ≠ B "pHYs" := by decide
    have d6 : B "IDAT" ≠ B "pHYs" := by decide
    generalize B "PLTE" = P at *
    generalize B "tRNS" = T at *
    generalize B "IDAT" = I at *
    generalize B "pHYs" = H at *
    have hof : ∀ x, ofType (c :: l) x = if c.type = x then c.data :: ofType l x else ofType l x := by
      intro x
      unfold ofType
      rw [List.filter_cons]
      by_cases h : c.type = x
      · rw [if_pos (by simpa using h), if_pos h]; rfl
      · rw [if_neg (by simpa using h), if_neg h]
    simp only [hof]
    by_cases h1 : c.type = P
    · simp only [h1, if_true, if_neg d1, if_neg d2, if_neg d3, List.foldl_cons]
    by_cases h2 : c.type = T
    · simp only [h2, if_true, if_neg d1.symm, if_neg d4, if_neg d5, List.foldl_cons]
    by_cases h3 : c.type = I
    · simp only [h3, if_true, if_neg d2.symm, if_neg d4.symm, if_neg d6, List.flatten_cons, List.append_assoc]
    by_cases h4 : c.type = H
    · simp only [h4, if_true, if_neg d3.symm, if_neg d5.symm, if_neg d6.symm, List.foldl_cons]
      rfl
    · simp only [if_neg h1, if_neg h2, if_neg h3, if_neg h4]

end Verif.Proof
