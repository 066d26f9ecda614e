import Verif.Model.TtfParse
import Verif.Spec.Ttf
import Mathlib.Tactic.SplitIfs
/-
C72: what `TtfParse` reads from a TrueType file.
-/
namespace Verif.Props
open Verif Verif.Spec Verif.Model.TtfParse

theorem rdU16_eq {f : Bytes} {p : Nat} (h : p + 1 < f.length) : rdU16 f p = u16At f p := by
  have h0 : p < f.length := by omega
  simp [rdU16, u16At, byteAt, List.getElem?_eq_getElem h, List.getElem?_eq_getElem h0, List.getD_eq_getElem?_getD]

theorem rdU32_eq {f : Bytes} {p : Nat} (h : p + 3 < f.length) : rdU32 f p = u32At f p := by
  rw [rdU32, if_pos h, rdU16_eq (by omega), rdU16_eq (by omega)]
  rfl

theorem u16At_lt (f : Bytes) (p : Nat) : u16At f p < 65536 := by
  have h := fun i => (f.getD i 0).toNat_lt
  have h1 := h p
  have h2 := h (p + 1)
  simp only [u16At, byteAt]
  omega

/-! ### Advance widths -/

theorem hmtxLoop_length (f : Bytes) (n : Nat) : ∀ p, (hmtxLoop f n p).length = n := by
  induction n with
  | zero => intro p; rfl
  | succ n ih => intro p; simp [hmtxLoop, ih]

theorem hmtxLoop_get (f : Bytes) (n : Nat) : ∀ p g, g < n → (hmtxLoop f n p)[g]? = some (rdU16 f (p + 4 * g)) := by
  induction n with
  | zero => intro p g h; omega
  | succ n ih =>
    intro p g h
    cases g with
    | zero => rfl
    | succ g =>
      rw [hmtxLoop, List.getElem?_cons_succ, ih _ _ (by omega)]
      congr 2
      omega

/-- **C72** `Widths` has the advance width of every glyph: the one in its record of the table hmtx, or, for the glyphs after the last record, the one of the last record (OpenType
specification, "hmtx": "If numberOfHMetrics is less than the total number of glyphs, then … the advance width of the last record applies to all remaining glyphs"). -/
theorem C72_widths (f : Bytes) (nH nG hmtx : Nat) (h0 : 0 < nH) (hin : hmtx + 4 * nH ≤ f.length) :
    ∃ ws, parseHmtx f nH nG hmtx = some ws ∧ ws.length = max nH nG ∧
      ∀ g, g < max nH nG → ws[g]? = some (u16At f (hmtx + 4 * (if g < nH then g else nH - 1))) := by
  have hg : ∀ g, g < nH → (hmtxLoop f nH hmtx)[g]? = some (u16At f (hmtx + 4 * g)) := fun g h => by
    rw [hmtxLoop_get _ _ _ _ h, rdU16_eq (by omega)]
  have hl := hmtxLoop_length f nH hmtx
  unfold parseHmtx
  by_cases hn : nH < nG
  · have hlast : (hmtxLoop f nH hmtx).getLast? = some (u16At f (hmtx + 4 * (nH - 1))) := by
      rw [List.getLast?_eq_getElem?, hl]
      exact hg _ (by omega)
    dsimp only
    rw [if_pos hn, hlast]
    refine ⟨_, rfl, by simp [hl]; omega, fun g h => ?_⟩
    by_cases hgn : g < nH
    · rw [List.getElem?_append_left (by omega), if_pos hgn]
      exact hg g hgn
    · rw [List.getElem?_append_right (by omega), if_neg hgn, hl, List.getElem?_replicate, if_pos (by omega)]
  · dsimp only
    rw [if_neg hn]
    refine ⟨_, rfl, by omega, fun g h => ?_⟩
    rw [if_pos (by omega)]
    exact hg g (by omega)

/-- **C72** A file that says it has glyphs but no record of widths makes `TtfParse` panic, whatever else is in it. -/
theorem C72_widths_false (f : Bytes) (nG hmtx : Nat) (h : 0 < nG) : parseHmtx f 0 nG hmtx = none := by
  simp [parseHmtx, hmtxLoop, h]

/-! ### The character map -/

/-- The segments of a character map are in order and do not overlap, as the standard wants ("The segments are sorted in order of increasing endCode values"). -/
def Sorted (f : Bytes) (o : Nat) : Prop := ∀ i j, i < j → j < segCount f o → endCode f o i < startCode f o j

/-- The arrays of the character map, and the glyph numbers that they refer to, are in the file. -/
structure Complete (f : Bytes) (o : Nat) : Prop where
  arrays : o + 16 + 8 * segCount f o ≤ f.length
  glyphs : ∀ i c, i < segCount f o → startCode f o i ≤ c → c ≤ endCode f o i → u16At f (idRangePos f o i) ≠ 0 →
    idRangePos f o i + u16At f (idRangePos f o i) + 2 * (c - startCode f o i) + 1 < f.length

/-- The sum of the character code, or the glyph number found, and the idDelta of its segment does not need to be reduced modulo 65536 from below: with idDelta as a signed number, it is not negative. -/
def NoWrap (f : Bytes) (o c : Nat) : Prop :=
  ∀ i, i < segCount f o → startCode f o i ≤ c → c ≤ endCode f o i → idDelta f o i < 32768 ∨
    (if u16At f (idRangePos f o i) = 0 then 65536 ≤ c + idDelta f o i
     else u16At f (idRangePos f o i + u16At f (idRangePos f o i) + 2 * (c - startCode f o i)) = 0 ∨
       65536 ≤ u16At f (idRangePos f o i + u16At f (idRangePos f o i) + 2 * (c - startCode f o i)) + idDelta f o i)

theorem segLoop_get (G : Nat → Option Nat) (a n : Nat) (m : Nat → Option Nat) (c : Nat) :
    (List.range n).foldl (fun m k => match G k with | some g => put m (a + k) g | none => m) m c =
      if a ≤ c ∧ c < a + n then (match G (c - a) with | some g => some g | none => m c) else m c := by
  induction n with
  | zero => rw [if_neg (by omega)]; rfl
  | succ n ih =>
    rw [List.range_succ, List.foldl_append, List.foldl_cons, List.foldl_nil]
    by_cases hc : c = a + n
    · subst hc
      rw [if_neg (by omega)] at ih
      rw [if_pos (by omega), Nat.add_sub_cancel_left]
      cases G n with
      | none => exact ih
      | some g => simp [put]
    · have e : (if a ≤ c ∧ c < a + n then (match G (c - a) with | some g => some g | none => m c) else m c) =
          if a ≤ c ∧ c < a + (n + 1) then (match G (c - a) with | some g => some g | none => m c) else m c := by
        by_cases h : a ≤ c ∧ c < a + n
        · rw [if_pos h, if_pos (by omega)]
        · rw [if_neg h, if_neg (by omega)]
      rw [← e, ← ih]
      cases G n with
      | none => rfl
      | some g => simp [put, hc]

theorem segs_get (S E : Nat → Nat) (V : Nat → Nat → Option Nat) (step : (Nat → Option Nat) → Nat → Nat → Option Nat) (c : Nat)
    (hstep : ∀ m j, step m j c = if S j ≤ c ∧ c ≤ E j then (match V j c with | some g => some g | none => m c) else m c) (n : Nat)
    (hs : ∀ i j, i < j → j < n → E i < S j) :
    (List.range n).foldl step (fun _ => none) c =
      match (List.range n).find? (fun i => decide (c ≤ E i)) with
      | none => none
      | some i => if S i ≤ c then V i c else none := by
  induction n with
  | zero => rfl
  | succ n ih =>
    have ih := ih (fun i j h1 h2 => hs i j h1 (by omega))
    rw [List.range_succ, List.foldl_append, List.foldl_cons, List.foldl_nil, hstep, ih, List.find?_append]
    cases hf : (List.range n).find? (fun i => decide (c ≤ E i)) with
    | some i =>
      have hi : i < n := by simpa using List.mem_of_find?_eq_some hf
      have hc : c ≤ E i := by simpa using List.find?_some hf
      have := hs i n hi (by omega)
      simp only [Option.some_or]
      rw [if_neg (by omega)]
    | none =>
      by_cases hc : c ≤ E n
      · simp only [List.find?_cons, hc, decide_true, Option.none_or, and_true]
        split
        · split <;> simp_all
        · rfl
      · simp [List.find?_cons, hc]

theorem encLoop_find (f : Bytes) (n : Nat) : ∀ p acc, encLoop f n p acc ≠ 0 → acc ≠ 0 ∧ encLoop f n p acc = acc ∨
    ∃ k, k < n ∧ rdU16 f (p + 8 * k) = 3 ∧ rdU16 f (p + 8 * k + 2) = 1 ∧ encLoop f n p acc = rdU32 f (p + 8 * k + 4) := by
  induction n with
  | zero => intro p acc h; exact .inl ⟨h, rfl⟩
  | succ n ih =>
    intro p acc h
    simp only [encLoop] at h ⊢
    rcases ih _ _ h with ⟨h1, h2⟩ | ⟨k, hk, h1, h2, h3⟩
    · by_cases hc : rdU16 f p = 3 ∧ rdU16 f (p + 2) = 1
      · rw [if_pos hc] at h2
        exact .inr ⟨0, by omega, hc.1, hc.2, by rw [if_pos hc]; exact h2⟩
      · rw [if_neg hc] at h1 h2 ⊢
        exact .inl ⟨h1, h2⟩
    · refine .inr ⟨k + 1, by omega, ?_, ?_, ?_⟩
      · rw [← h1]; congr 1; omega
      · rw [← h2]; congr 1; omega
      · rw [h3]; congr 1; omega

/-- **C72** `Chars` is the Unicode character map of the font: it comes from a sub-table that the font lists for the platform Windows, encoding Unicode, and has exactly the characters to which the
standard assigns a glyph, with that glyph — for every character but U+FFFF for which no sum is negative. -/
theorem C72_chars (f : Bytes) (cmap : Nat) (chars : Nat → Option Nat) (h : parseCmap f cmap = some chars) (hin : cmap + 4 + 8 * rdU16 f (cmap + 2) ≤ f.length) :
    ∃ k, k < u16At f (cmap + 2) ∧ u16At f (cmap + 4 + 8 * k) = 3 ∧ u16At f (cmap + 4 + 8 * k + 2) = 1 ∧
      let o := cmap + u32At f (cmap + 4 + 8 * k + 4)
      (Complete f o → u16At f o = 4) ∧
      (Sorted f o → Complete f o → ∀ c, c < 0xFFFF → NoWrap f o c → chars c = if cmapGlyph f o c = 0 then none else some (cmapGlyph f o c)) := by
  unfold parseCmap at h
  dsimp only at h
  split at h
  · cases h
  rename_i hne
  rcases encLoop_find _ _ _ _ hne with ⟨h1, -⟩ | ⟨k, hk, h1, h2, h3⟩
  · exact absurd rfl h1
  rw [h3] at h hne
  have hk2 : rdU16 f (cmap + 2) = u16At f (cmap + 2) := by
    by_cases hl : cmap + 3 < f.length
    · exact rdU16_eq (by omega)
    · exfalso; omega
  rw [rdU16_eq (by omega)] at h1 h2
  rw [rdU32_eq (by omega)] at h
  refine ⟨k, by omega, h1, h2, ?_⟩
  dsimp only
  generalize cmap + u32At f (cmap + 4 + 8 * k + 4) = o at h ⊢
  split at h
  · cases h
  rename_i h4
  refine ⟨fun hc => ?_, fun hs hc c hc' hw => ?_⟩
  · have := hc.arrays
    rw [← rdU16_eq (by omega)]
    simpa using h4
  obtain rfl := Option.some.inj h
  have ha := hc.arrays
  have en : rdU16 f (o + 6) / 2 = segCount f o := by rw [rdU16_eq (by omega)]; rfl
  rw [en]
  have hlt := u16At_lt f
  -- the loop over the segments, restricted to those there are
  have key : ∀ n, n ≤ segCount f o →
      (List.range n).foldl (fun m j => segLoop f (rdU16 f (o + 14 + 2 * segCount f o + 2 + 2 * j)) (rdU16 f (o + 14 + 2 * j))
        (rdI16 f (o + 14 + 2 * segCount f o + 2 + 2 * segCount f o + 2 * j)) (o + 14 + 2 * segCount f o + 2 + 2 * segCount f o + 2 * segCount f o + 2 * j)
        (rdU16 f (o + 14 + 2 * segCount f o + 2 + 2 * segCount f o + 2 * segCount f o + 2 * j)) m) (fun _ => none) =
      (List.range n).foldl (fun m j => segLoop f (startCode f o j) (endCode f o j) (rdI16 f (o + 16 + 4 * segCount f o + 2 * j)) (idRangePos f o j) (u16At f (idRangePos f o j)) m) (fun _ => none) := by
    intro n hn
    induction n with
    | zero => rfl
    | succ n ih =>
      rw [List.range_succ, List.foldl_append, List.foldl_append, ih (by omega)]
      simp only [List.foldl_cons, List.foldl_nil]
      rw [rdU16_eq (p := o + 14 + 2 * segCount f o + 2 + 2 * n) (by omega), rdU16_eq (p := o + 14 + 2 * n) (by omega),
        rdU16_eq (p := o + 14 + 2 * segCount f o + 2 + 2 * segCount f o + 2 * segCount f o + 2 * n) (by omega)]
      have e1 : o + 14 + 2 * segCount f o + 2 + 2 * n = o + 16 + 2 * segCount f o + 2 * n := by omega
      have e2 : o + 14 + 2 * segCount f o + 2 + 2 * segCount f o + 2 * n = o + 16 + 4 * segCount f o + 2 * n := by omega
      have e3 : o + 14 + 2 * segCount f o + 2 + 2 * segCount f o + 2 * segCount f o + 2 * n = idRangePos f o n := by unfold idRangePos; omega
      rw [e1, e2, e3]
      rfl
  rw [key _ (Nat.le_refl _)]
  rw [segs_get (startCode f o) (endCode f o) (fun j c => segGlyph f (startCode f o j) (rdI16 f (o + 16 + 4 * segCount f o + 2 * j)) (idRangePos f o j) (u16At f (idRangePos f o j)) (c - startCode f o j))
    _ c ?_ (segCount f o) hs]
  · cases hfd : (List.range (segCount f o)).find? (fun i => decide (c ≤ endCode f o i)) with
    | none =>
      have hcg : cmapGlyph f o c = 0 := by unfold cmapGlyph; rw [hfd]
      rw [hcg]; rfl
    | some i =>
      have hi : i < segCount f o := by simpa using List.mem_of_find?_eq_some hfd
      have hce : c ≤ endCode f o i := by simpa using List.find?_some hfd
      dsimp only
      by_cases hsc : startCode f o i ≤ c
      · have hcg : cmapGlyph f o c = if u16At f (idRangePos f o i) = 0 then (c + idDelta f o i) % 65536
            else if u16At f (idRangePos f o i + u16At f (idRangePos f o i) + 2 * (c - startCode f o i)) = 0 then 0
              else (u16At f (idRangePos f o i + u16At f (idRangePos f o i) + 2 * (c - startCode f o i)) + idDelta f o i) % 65536 := by
          unfold cmapGlyph; rw [hfd]; dsimp only; rw [if_pos hsc]
        rw [if_pos hsc, hcg]
        have hwi := hw i hi hsc hce
        have hgl := hc.glyphs i c hi hsc hce
        have hd : rdI16 f (o + 16 + 4 * segCount f o + 2 * i) = if idDelta f o i < 32768 then (idDelta f o i : Int) else (idDelta f o i : Int) - 65536 := by
          unfold rdI16; rw [rdU16_eq (by omega)]; rfl
        have hdl : idDelta f o i < 65536 := hlt _
        unfold segGlyph
        rw [if_neg (by omega), hd]
        have ec : startCode f o i + (c - startCode f o i) = c := by omega
        rw [ec]
        generalize u16At f (idRangePos f o i) = r at hwi hgl ⊢
        generalize idDelta f o i = d at hwi hdl ⊢
        by_cases hr : r = 0
        · subst hr
          simp only [if_true, Nat.lt_irrefl, if_false, gt_iff_lt] at hwi ⊢
          split_ifs <;> first | rfl | omega | (congr 1; omega)
        · have hgl := hgl hr
          rw [rdU16_eq (by omega)]
          have hg := hlt (idRangePos f o i + r + 2 * (c - startCode f o i))
          simp only [hr, if_false] at hwi
          rw [if_pos (show r > 0 by omega), if_neg hr]
          dsimp only
          generalize u16At f (idRangePos f o i + r + 2 * (c - startCode f o i)) = g at hwi hg ⊢
          split_ifs <;> first | rfl | omega | (congr 1; omega)
      · have hcg : cmapGlyph f o c = 0 := by unfold cmapGlyph; rw [hfd]; dsimp only; rw [if_neg hsc]
        rw [if_neg hsc, hcg]; rfl
  · intro m j
    refine (segLoop_get (segGlyph f (startCode f o j) (rdI16 f (o + 16 + 4 * segCount f o + 2 * j)) (idRangePos f o j) (u16At f (idRangePos f o j))) (startCode f o j)
      (endCode f o j + 1 - startCode f o j) m c).trans ?_
    by_cases hj : startCode f o j ≤ c ∧ c ≤ endCode f o j
    · rw [if_pos (by omega), if_pos hj]
    · rw [if_neg (by omega), if_neg hj]

theorem encLoop_none (f : Bytes) (n : Nat) : ∀ p acc, (∀ j, j < n → ¬ (rdU16 f (p + 8 * j) = 3 ∧ rdU16 f (p + 8 * j + 2) = 1)) → encLoop f n p acc = acc := by
  induction n with
  | zero => intro p acc _; rfl
  | succ n ih =>
    intro p acc h
    have h00 : ¬ (rdU16 f p = 3 ∧ rdU16 f (p + 2) = 1) := h 0 (by omega)
    rw [encLoop, if_neg h00]
    refine ih _ _ fun j hj => ?_
    have := h (j + 1) (by omega)
    rwa [show p + 8 * (j + 1) = p + 8 + 8 * j by omega] at this

theorem encLoop_last (f : Bytes) (n : Nat) : ∀ p acc k, k < n → rdU16 f (p + 8 * k) = 3 ∧ rdU16 f (p + 8 * k + 2) = 1 →
    (∀ j, k < j → j < n → ¬ (rdU16 f (p + 8 * j) = 3 ∧ rdU16 f (p + 8 * j + 2) = 1)) → encLoop f n p acc = rdU32 f (p + 8 * k + 4) := by
  induction n with
  | zero => intro p acc k h; omega
  | succ n ih =>
    intro p acc k hk h1 h2
    rw [encLoop]
    cases k with
    | zero =>
      have h10 : rdU16 f p = 3 ∧ rdU16 f (p + 2) = 1 := h1
      rw [if_pos h10]
      refine encLoop_none f n _ _ fun j hj => ?_
      have := h2 (j + 1) (by omega) (by omega)
      rwa [show p + 8 * (j + 1) = p + 8 + 8 * j by omega] at this
    | succ k =>
      rw [show p + 8 * (k + 1) = p + 8 + 8 * k by omega] at h1 ⊢
      refine ih _ _ k (by omega) h1 fun j h3 h4 => ?_
      have := h2 (j + 1) (by omega) (by omega)
      rwa [show p + 8 * (j + 1) = p + 8 + 8 * j by omega] at this

/-- **C72** A font that lists a Unicode sub-table for Windows (the last one listed counts) of format 4 is accepted, any other is refused. -/
theorem C72_accepts (f : Bytes) (cmap : Nat) (hin : cmap + 4 + 8 * rdU16 f (cmap + 2) ≤ f.length) (k : Nat) (hk : k < u16At f (cmap + 2))
    (h1 : u16At f (cmap + 4 + 8 * k) = 3 ∧ u16At f (cmap + 4 + 8 * k + 2) = 1)
    (h2 : ∀ j, k < j → j < u16At f (cmap + 2) → ¬ (u16At f (cmap + 4 + 8 * j) = 3 ∧ u16At f (cmap + 4 + 8 * j + 2) = 1))
    (h0 : u32At f (cmap + 4 + 8 * k + 4) ≠ 0) (hlen : cmap + u32At f (cmap + 4 + 8 * k + 4) + 1 < f.length) :
    (parseCmap f cmap).isSome = true ↔ u16At f (cmap + u32At f (cmap + 4 + 8 * k + 4)) = 4 := by
  have hn : rdU16 f (cmap + 2) = u16At f (cmap + 2) := by
    by_cases hl : cmap + 3 < f.length
    · exact rdU16_eq (by omega)
    · exfalso; omega
  have he : encLoop f (rdU16 f (cmap + 2)) (cmap + 4) 0 = u32At f (cmap + 4 + 8 * k + 4) := by
    rw [encLoop_last f _ (cmap + 4) 0 k (by omega), rdU32_eq (by omega)]
    · rw [rdU16_eq (by omega), rdU16_eq (by omega)]; exact h1
    · intro j h3 h4
      rw [rdU16_eq (by omega), rdU16_eq (by omega)]
      exact h2 j h3 (by omega)
  unfold parseCmap
  dsimp only
  rw [he, if_neg h0, rdU16_eq hlen]
  by_cases h4 : u16At f (cmap + u32At f (cmap + 4 + 8 * k + 4)) = 4
  · simp [h4]
  · simp [h4]

/-- **C72** A font without a Unicode sub-table for Windows is refused. -/
theorem C72_refuses (f : Bytes) (cmap : Nat) (hin : cmap + 4 + 8 * rdU16 f (cmap + 2) ≤ f.length)
    (h : ∀ j, j < u16At f (cmap + 2) → ¬ (u16At f (cmap + 4 + 8 * j) = 3 ∧ u16At f (cmap + 4 + 8 * j + 2) = 1)) : parseCmap f cmap = none := by
  have he : encLoop f (rdU16 f (cmap + 2)) (cmap + 4) 0 = 0 := by
    refine encLoop_none f _ _ _ fun j hj => ?_
    rw [rdU16_eq (by omega), rdU16_eq (by omega)]
    refine h j ?_
    rw [← rdU16_eq (by omega)]
    exact hj
  unfold parseCmap
  dsimp only
  rw [if_pos he]

/-! ### The file -/

/-- Record number `i` of the directory, and no other one, is for the table `tag`, which starts at `p`. -/
def HasTable (f tag : Bytes) (p : Nat) : Prop :=
  ∃ i, i < u16At f 4 ∧ (∀ j, j < u16At f 4 → ((dirEntry f j).tag = tag ↔ j = i)) ∧ (dirEntry f i).offset = p

theorem dirLoop_skip (f tag : Bytes) (n : Nat) : ∀ k m, 12 + 16 * (k + n) ≤ f.length → (∀ j, k ≤ j → j < k + n → (dirEntry f j).tag ≠ tag) →
    dirLoop f tag n (12 + 16 * k) m = some m := by
  induction n with
  | zero => intro k m _ _; rfl
  | succ n ih =>
    intro k m hl h
    have h0 : ¬ (f.drop (12 + 16 * k)).take 4 = tag := h k (by omega) (by omega)
    rw [dirLoop, if_pos (by omega), if_neg h0]
    exact ih (k + 1) m (by omega) fun j h1 h2 => h j (by omega) (by omega)

theorem dirLoop_find (f tag : Bytes) (n : Nat) : ∀ k m i, 12 + 16 * (k + n) ≤ f.length → k ≤ i → i < k + n → (∀ j, k ≤ j → j < k + n → ((dirEntry f j).tag = tag ↔ j = i)) →
    dirLoop f tag n (12 + 16 * k) m = some (some (dirEntry f i).offset) := by
  induction n with
  | zero => intro k m i _ h1 h2 _; omega
  | succ n ih =>
    intro k m i hl h1 h2 h
    rw [dirLoop, if_pos (by omega)]
    by_cases hk : k = i
    · subst hk
      have h0 : (f.drop (12 + 16 * k)).take 4 = tag := (h k (by omega) (by omega)).mpr rfl
      rw [if_pos h0, rdU32_eq (by omega)]
      exact dirLoop_skip f tag n (k + 1) _ (by omega) fun j h3 h4 he => by have := (h j (by omega) (by omega)).mp he; omega
    · have h0 : ¬ (f.drop (12 + 16 * k)).take 4 = tag := fun he => hk ((h k (by omega) (by omega)).mp he)
      rw [if_neg h0]
      exact ih (k + 1) m i (by omega) (by omega) (by omega) fun j h3 h4 => h j (by omega) (by omega)

theorem tableOf_eq {f tag : Bytes} {p : Nat} (hl : 12 + 16 * u16At f 4 ≤ f.length) (h : HasTable f tag p) : tableOf f tag = some p := by
  obtain ⟨i, hi, h1, rfl⟩ := h
  unfold tableOf
  rw [rdU16_eq (by omega), show (12 : Nat) = 12 + 16 * 0 from rfl, dirLoop_find f tag _ 0 none i (by omega) (by omega) (by omega) (fun j _ h2 => h1 j (by omega))]
  rfl

/-- **C72** (the file) Widths and character map are read from the tables that the directory lists under the tags hmtx and cmap, for the numbers of records and glyphs given by the tables hhea and
maxp; a file with these tables, the right version and the magic number is accepted if it has widths and a character map that can be read (`C72_widths`, `C72_accepts`). -/
theorem C72_file (f : Bytes) (head hhea maxp hmtx cmap : Nat) (hl : 12 + 16 * u16At f 4 ≤ f.length) (hv : f.take 4 = [0, 1, 0, 0])
    (h1 : HasTable f (B "head") head) (h2 : HasTable f (B "hhea") hhea) (h3 : HasTable f (B "maxp") maxp) (h4 : HasTable f (B "hmtx") hmtx) (h5 : HasTable f (B "cmap") cmap)
    (e1 : head + 16 ≤ f.length) (e2 : hhea + 36 ≤ f.length) (e3 : maxp + 6 ≤ f.length) (hm : u32At f (head + 12) = 0x5F0F3CF5) (ws : List Nat) (chars : Nat → Option Nat) :
    ttfMetrics f = some (ws, chars) ↔ parseHmtx f (u16At f (hhea + 34)) (u16At f (maxp + 4)) hmtx = some ws ∧ parseCmap f cmap = some chars := by
  unfold ttfMetrics numberOfHMetrics numGlyphs
  rw [if_neg (by simp [hv]), tableOf_eq hl h1, tableOf_eq hl h2, tableOf_eq hl h3, tableOf_eq hl h4, tableOf_eq hl h5]
  simp only [Option.bind_some]
  rw [if_neg (by rw [rdU32_eq (by omega), hm]; simp), rdU16_eq (by omega), rdU16_eq (by omega)]
  cases parseHmtx f (u16At f (hhea + 34)) (u16At f (maxp + 4)) hmtx with
  | none => simp
  | some w =>
    cases parseCmap f cmap with
    | none => simp
    | some m => simp

/-- A table `cmap`: one encoding record; the segments are 3 to 5 (glyphs 13 to 15) and 7 to 8 (by the array of glyph numbers: 100 and 0, the missing glyph). -/
def tinyCmap : Bytes := [0, 0, 0, 1, 0, 3, 0, 1, 0, 0, 0, 12,
  0, 4, 0, 36, 0, 0, 0, 4, 0, 0, 0, 0, 0, 0,  0, 5, 0, 8,  0, 0,  0, 3, 0, 7,  0, 10, 0, 0,  0, 0, 0, 2,  0, 100, 0, 0]

theorem tiny_sorted : Sorted tinyCmap 12 := by
  intro i j hij hj
  have : segCount tinyCmap 12 = 2 := by decide +kernel
  have h1 : i = 0 := by omega
  have h2 : j = 1 := by omega
  subst h1; subst h2
  decide +kernel

theorem tiny_complete : Complete tinyCmap 12 where
  arrays := by decide +kernel
  glyphs := by
    have : ∀ i, i < segCount tinyCmap 12 → ∀ c, c < endCode tinyCmap 12 i + 1 → startCode tinyCmap 12 i ≤ c → u16At tinyCmap (idRangePos tinyCmap 12 i) ≠ 0 →
      idRangePos tinyCmap 12 i + u16At tinyCmap (idRangePos tinyCmap 12 i) + 2 * (c - startCode tinyCmap 12 i) + 1 < tinyCmap.length := by decide +kernel
    exact fun i c hi h1 h2 h3 => this i hi c (by omega) h1 h3

theorem tiny_noWrap (c : Nat) : NoWrap tinyCmap 12 c := by
  have : ∀ i, i < segCount tinyCmap 12 → idDelta tinyCmap 12 i < 32768 := by decide +kernel
  exact fun i hi _ _ => .inl (this i hi)

/-- The hypotheses are met: `C72_chars` applies to all characters of `tinyCmap`, and this is its map. -/
example : (parseCmap tinyCmap 0).isSome = true ∧ 0 + 4 + 8 * rdU16 tinyCmap 2 ≤ tinyCmap.length ∧ (∀ c, NoWrap tinyCmap 12 c) ∧ Sorted tinyCmap 12 ∧ Complete tinyCmap 12 ∧
    (parseCmap tinyCmap 0).map (fun m => [2, 3, 4, 5, 6, 7, 8, 9].map m) = some [none, some 13, some 14, some 15, none, some 100, none, none] :=
  ⟨by decide +kernel, by decide +kernel, tiny_noWrap, tiny_sorted, tiny_complete, by decide +kernel⟩

/-- A whole file: directory, head (magic number), hhea (2 records), maxp (3 glyphs), hmtx, cmap. -/
def tinyTtf : Bytes := [0, 1, 0, 0,  0, 5, 0, 0, 0, 0, 0, 0] ++
  B "cmap" ++ [0, 0, 0, 0, 0, 0, 0, 160, 0, 0, 0, 48] ++ B "head" ++ [0, 0, 0, 0, 0, 0, 0, 92, 0, 0, 0, 16] ++ B "hhea" ++ [0, 0, 0, 0, 0, 0, 0, 108, 0, 0, 0, 36] ++
  B "hmtx" ++ [0, 0, 0, 0, 0, 0, 0, 150, 0, 0, 0, 8] ++ B "maxp" ++ [0, 0, 0, 0, 0, 0, 0, 144, 0, 0, 0, 6] ++
  [0, 0, 0, 0, 0, 0, 0, 0, 0, 0, 0, 0, 0x5F, 0x0F, 0x3C, 0xF5] ++ List.replicate 34 0 ++ [0, 2] ++ [0, 0, 0, 0, 0, 3] ++ [2, 88, 0, 1, 1, 44, 0, 2] ++ [0, 0] ++ tinyCmap

theorem hasTable_of {f tag : Bytes} {p : Nat} (i : Nat) (hi : i < u16At f 4) (h : ∀ j, j < u16At f 4 → ((dirEntry f j).tag = tag ↔ j = i)) (hp : (dirEntry f i).offset = p) : HasTable f tag p := ⟨i, hi, h, hp⟩

/-- The hypotheses of `C72_file` are met by `tinyTtf`. -/
example : 12 + 16 * u16At tinyTtf 4 ≤ tinyTtf.length ∧ tinyTtf.take 4 = [0, 1, 0, 0] ∧ HasTable tinyTtf (B "head") 92 ∧ HasTable tinyTtf (B "hhea") 108 ∧ HasTable tinyTtf (B "maxp") 144 ∧
    HasTable tinyTtf (B "hmtx") 150 ∧ HasTable tinyTtf (B "cmap") 160 ∧ u32At tinyTtf (92 + 12) = 0x5F0F3CF5 ∧
    (ttfMetrics tinyTtf).map (fun r => (r.1, [4, 6, 7].map r.2)) = some ([600, 300, 300], [some 14, none, some 100]) :=
  ⟨by decide +kernel, by decide +kernel, hasTable_of 1 (by decide +kernel) (by decide +kernel) (by decide +kernel), hasTable_of 2 (by decide +kernel) (by decide +kernel) (by decide +kernel),
    hasTable_of 4 (by decide +kernel) (by decide +kernel) (by decide +kernel), hasTable_of 3 (by decide +kernel) (by decide +kernel) (by decide +kernel),
    hasTable_of 0 (by decide +kernel) (by decide +kernel) (by decide +kernel), by decide +kernel, by decide +kernel⟩

/-- The hypotheses of `C72_widths` are met, with a glyph after the last record. -/
example : parseHmtx [0, 0, 2, 88, 0, 1, 1, 44, 0, 2] 2 3 2 = some [600, 300, 300] := by decide +kernel

/-- A table `cmap` with one segment, of the character U+0005, and idDelta -5541. -/
def lostCmap : Bytes := [0, 0, 0, 1, 0, 3, 0, 1, 0, 0, 0, 12,  0, 4, 0, 24, 0, 0, 0, 2, 0, 0, 0, 0, 0, 0,  0, 5,  0, 0,  0, 5,  234, 91,  0, 0]

/-- **C72** refuted for characters whose glyph number is found by reducing a negative sum modulo 65536: here U+0005 has glyph 60000 but is not in the map. -/
theorem C72_chars_false : ∃ chars, parseCmap lostCmap 0 = some chars ∧ u32At lostCmap 8 = 12 ∧ Sorted lostCmap 12 ∧ Complete lostCmap 12 ∧ cmapGlyph lostCmap 12 5 = 60000 ∧ chars 5 = none := by
  have h : (parseCmap lostCmap 0).map (fun m => m 5) = some none := by decide +kernel
  obtain ⟨chars, h1, h2⟩ := Option.map_eq_some_iff.mp h
  have hn : segCount lostCmap 12 = 1 := by decide +kernel
  refine ⟨chars, h1, by decide +kernel, fun i j h3 h4 => by omega, ⟨by decide +kernel, fun i c h3 h4 h5 h6 => ?_⟩, by decide +kernel, h2⟩
  obtain rfl : i = 0 := by omega
  exact absurd (by decide +kernel) h6

end Verif.Props
