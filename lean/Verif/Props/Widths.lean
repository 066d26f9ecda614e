import Verif.Proof.CidMap
import Verif.Model.Writer
/-
Claim C41: the width array of a UTF-8 font.
-/
namespace Verif.Props
open Verif Verif.Model Verif.Spec Verif.Proof

theorem lookup_chars (cw : List Nat) (used : Nat → Bool) (lastRune c : Nat) :
    (cidChars cw used lastRune).lookup c = if 1 ≤ c ∧ c ≤ lastRune ∧ cw.getD c 0 ≠ 0 ∧ (c ≤ 255 ∨ used c = true) then some (if cw.getD c 0 = 65535 then 0 else cw.getD c 0) else none := by
  unfold cidChars
  have key : ∀ (n s : Nat), ((List.range' s n).filterMap fun cid =>
      let w := cw.getD cid 0
      if w = 0 then none
      else if cid > 255 ∧ used cid = false then none
      else some (cid, if w = 65535 then 0 else w)).lookup c = if s ≤ c ∧ c < s + n ∧ cw.getD c 0 ≠ 0 ∧ (c ≤ 255 ∨ used c = true) then some (if cw.getD c 0 = 65535 then 0 else cw.getD c 0)
      else none := by
    intro n
    induction n with
    | zero =>
      intro s
      rw [if_neg (by omega)]
      rfl
    | succ n ih =>
      intro s
      rw [List.range'_succ, List.filterMap_cons]
      dsimp only
      have hih := ih (s + 1)
      by_cases hc : c = s
      · subst hc
        by_cases h1 : cw.getD c 0 = 0
        · rw [if_pos h1]
          dsimp only at hih ⊢
          rw [hih, if_neg (by omega), if_neg (fun h => h.2.2.1 h1)]
        · by_cases h2 : c > 255 ∧ used c = false
          · rw [if_neg h1, if_pos h2]
            dsimp only at hih ⊢
            rw [hih, if_neg (by omega), if_neg ?_]
            rintro ⟨-, -, -, h | h⟩
            · omega
            · rw [h2.2] at h; cases h
          · rw [if_neg h1, if_neg h2]
            have h4 : c ≤ c ∧ c < c + (n + 1) ∧ cw.getD c 0 ≠ 0 ∧ (c ≤ 255 ∨ used c = true) := by
              refine ⟨by omega, by omega, h1, ?_⟩
              by_cases h3 : c ≤ 255
              · exact .inl h3
              · right
                rw [← Bool.not_eq_false]
                exact fun h => h2 ⟨by omega, h⟩
            dsimp only
            rw [List.lookup_cons, beq_self_eq_true, if_pos h4]
      · have hsk : (s ≤ c ∧ c < s + (n + 1) ∧ cw.getD c 0 ≠ 0 ∧ (c ≤ 255 ∨ used c = true)) ↔ (s + 1 ≤ c ∧ c < s + 1 + n ∧ cw.getD c 0 ≠ 0 ∧ (c ≤ 255 ∨ used c = true)) := by
          constructor
          · rintro ⟨a, b, d, e⟩; exact ⟨by omega, by omega, d, e⟩
          · rintro ⟨a, b, d, e⟩; exact ⟨by omega, by omega, d, e⟩
        have : (if s ≤ c ∧ c < s + (n + 1) ∧ cw.getD c 0 ≠ 0 ∧ (c ≤ 255 ∨ used c = true) then some (if cw.getD c 0 = 65535 then 0 else cw.getD c 0) else none) =
            (if s + 1 ≤ c ∧ c < s + 1 + n ∧ cw.getD c 0 ≠ 0 ∧ (c ≤ 255 ∨ used c = true) then some (if cw.getD c 0 = 65535 then 0 else cw.getD c 0) else none) := if_congr hsk rfl rfl
        rw [this, ← hih]
        split
        · rfl
        · rename_i x hx
          split at hx
          · cases hx
          split at hx
          · cases hx
          cases hx
          rw [List.lookup_cons, beq_eq_false_iff_ne.mpr hc]
  rw [key]
  apply if_congr ?_ rfl rfl
  constructor
  · rintro ⟨a, b, d, e⟩; exact ⟨a, by omega, d, e⟩
  · rintro ⟨a, b, d, e⟩; exact ⟨a, by omega, d, e⟩

theorem le_foldl_max (l : List Nat) (m : Nat) : m ≤ l.foldl max m ∧ ∀ c ∈ l, c ≤ l.foldl max m := by
  induction l generalizing m with
  | nil => simp
  | cons a l ih =>
    rw [List.foldl_cons]
    obtain ⟨h1, h2⟩ := ih (max m a)
    refine ⟨by omega, fun c hc => ?_⟩
    rcases List.mem_cons.mp hc with rfl | hc
    · omega
    · exact h2 c hc

/-- **C41.** For every table of widths and set of runes used: the array written reads, by the rules of the specification, as a list of characters in increasing order (so that no character has two
widths), and it has exactly the characters up to the last one used that have an entry in the table and are below 256 or used, each with its width (65535 in the table stands for 0). -/
theorem C41_array (d : FontDef) (used : List Nat) :
    ∃ ws, WidthEntry (widthLine d used ++ [10]) ws ∧ (ws.map (·.1)).Pairwise (· < ·) ∧
      ∀ c, ws.lookup c = if 1 ≤ c ∧ c ≤ used.foldl max 0 ∧ (d.cw.map Int.toNat).getD c 0 ≠ 0 ∧ (c ≤ 255 ∨ c ∈ used) then
        some (if (d.cw.map Int.toNat).getD c 0 = 65535 then 0 else (d.cw.map Int.toNat).getD c 0) else none := by
  refine ⟨_, widths_entry _ _ _, chars_ordered _ _ _, fun c => ?_⟩
  rw [lookup_chars]
  apply if_congr ?_ rfl rfl
  rw [List.contains_iff_mem]

/-- **C41.** Every character used has, for a reader of the file, the width that the library reckons with when it measures text, if the font has a width for missing characters.
The entry `/DW` is written iff that width is not zero. -/
theorem C41_widths (d : FontDef) (used : List Nat) (hm : d.missingWidth ≠ 0) (hw : ∀ w ∈ d.cw, 0 ≤ w) :
    ∃ ws, WidthEntry (widthLine d used ++ [10]) ws ∧ ∀ c ∈ used, c ≠ 0 → readerWidth ws (if d.missingWidth ≠ 0 then some d.missingWidth else none) c = Fpdf.runeWidth d c := by
  obtain ⟨ws, h1, -, h2⟩ := C41_array d used
  refine ⟨ws, h1, fun c hc h0 => ?_⟩
  unfold readerWidth Fpdf.runeWidth
  rw [h2, if_pos hm, if_pos hm]
  have hle := (le_foldl_max used 0).2 c hc
  have he : (d.cw.map Int.toNat).getD c 0 = (d.cw.getD c 0).toNat := by
    rw [List.getD_eq_getElem?_getD, List.getElem?_map, List.getD_eq_getElem?_getD]
    cases d.cw[c]? <;> rfl
  have hge : 0 ≤ d.cw.getD c 0 := by
    rw [List.getD_eq_getElem?_getD]
    cases h : d.cw[c]? with
    | none => exact Int.le_refl 0
    | some w => exact hw w (List.mem_of_getElem? h)
  rw [he]
  generalize d.cw.getD c 0 = w at *
  by_cases hz : w = 0
  · subst hz
    rw [if_neg (by simp)]
    rfl
  · rw [if_pos ⟨by omega, hle, by omega, .inr hc⟩]
    dsimp only
    rw [if_pos (show w > 0 by omega)]
    by_cases h5 : w = 65535
    · subst h5; rfl
    · rw [if_pos h5, if_neg (by omega)]
      omega

/-- A font of four characters, one of width 0. -/
def fourWidths : FontDef := { cw := [0, 600, 600, 65535, 250, 250, 250], missingWidth := 400 }

example : widthLine fourWidths [2, 3, 6] = B "/W [ 1 [ 600 600 0 ]\n 4 6 250 ]" ∧ fourWidths.missingWidth ≠ 0 ∧ (∀ w ∈ fourWidths.cw, 0 ≤ w) := by decide +kernel

/-- A font without a width for missing characters: the library reckons with 500 for a character that the font lacks, a reader of the file with 1000. -/
theorem C41_missing_false : ∃ (d : FontDef) (c : Nat) (ws : List (Nat × Nat)), d.missingWidth = 0 ∧ WidthEntry (widthLine d [c] ++ [10]) ws ∧
    readerWidth ws (if d.missingWidth ≠ 0 then some d.missingWidth else none) c ≠ Fpdf.runeWidth d c := by
  obtain ⟨ws, h1, -, h2⟩ := C41_array {} [7]
  refine ⟨{}, 7, ws, rfl, h1, ?_⟩
  unfold readerWidth
  rw [h2]
  decide

end Verif.Props
