import Verif.Proof.Wrap
import Verif.Model.Text
import Verif.Model.Getters
import Mathlib.Algebra.Order.Floor.Ring
import Mathlib.Data.Rat.Floor
import Mathlib.Data.List.TakeWhile
import Mathlib.Tactic.Linarith
import Mathlib.Tactic.FieldSimp
/-
C25: SplitLines. C26: SplitText.
-/
namespace Verif.Props
open Verif Verif.Model Verif.Spec Verif.Proof

/-- The width of a character in the current font, in thousandths of the font size. -/
def charWidth (f : Fpdf) (c : Nat) : Int := f.t.currentFont.cw.getD c 0

/-- The room for text in a cell of width `w`, in thousandths of the font size, rounded up. -/
def room (f : Fpdf) (w : Rat) : Int := ceilInt ((w - 2 * f.getCellMargin) * 1000 / f.t.fontSize)

/-- Blank, tab and newline. -/
def blank (c : Nat) : Bool := c = 32 ∨ c = 9 ∨ c = 10

/-- White space and Chinese characters. -/
def spaceOrChinese (c : Nat) : Bool := isSpaceRune c || isChinese c

theorem trimNl_spec (s : List Nat) : ∃ n, s = trimNl s ++ List.replicate n 10 ∧ (trimNl s).getLast? ≠ some 10 := by
  unfold trimNl
  refine ⟨(s.reverse.takeWhile (· = 10)).length, ?_, ?_⟩
  · have h : s.reverse = s.reverse.takeWhile (· = 10) ++ s.reverse.dropWhile (· = 10) := (List.takeWhile_append_dropWhile).symm
    have h2 : ∀ x ∈ s.reverse.takeWhile (· = 10), x = 10 := by
      intro x hx
      have h0 : (s.reverse.takeWhile (· = 10)).all (· = 10) = true := List.all_takeWhile
      have := List.all_eq_true.mp h0 x hx
      simpa using this
    have h3 := List.eq_replicate_of_mem h2
    have h4 := congrArg List.reverse h
    rw [List.reverse_reverse, List.reverse_append, h3, List.reverse_replicate] at h4
    simpa using h4
  · intro h
    rw [List.getLast?_reverse] at h
    have := List.head?_dropWhile_not (fun x : Nat => decide (x = 10)) s.reverse
    rw [h] at this
    simp at this

/-- **C25** `SplitLines` wraps the text, less carriage returns and trailing newlines, by first fit (see `Wrapped`), breaking at blanks, tabs and newlines. -/
theorem C25_wrapped (f : Fpdf) (txt : Bytes) (w : Rat) : ∃ body n, txt.filter (· ≠ 13) = body ++ List.replicate n 10 ∧ body.getLast? ≠ some 10 ∧
    Wrapped blank (charWidth f) (room f w) false (body.map UInt8.toNat) ((f.splitLines txt w).map (·.map UInt8.toNat)) := by
  have hb : ∀ l : List Nat, (∀ c ∈ l, c < 256) → (l.map UInt8.ofNat).map UInt8.toNat = l := by
    intro l h
    rw [List.map_map]
    conv => rhs; rw [← List.map_id l]
    refine List.map_congr_left fun c hc => ?_
    have := h c hc
    simp [Nat.mod_eq_of_lt this]
  have hsmall : ∀ c ∈ (txt.map UInt8.toNat).filter (· ≠ 13), c < 256 := by
    intro c hc
    obtain ⟨b, -, rfl⟩ := List.mem_map.mp (List.mem_filter.mp hc).1
    exact UInt8.toNat_lt b
  obtain ⟨n, h1, h2⟩ := trimNl_spec ((txt.map UInt8.toNat).filter (· ≠ 13))
  have hfil : (txt.map UInt8.toNat).filter (· ≠ 13) = (txt.filter (· ≠ 13)).map UInt8.toNat := by
    rw [List.filter_map]
    congr 1
    refine List.filter_congr fun b _ => ?_
    simp [← UInt8.toNat_inj]
  have hs : ∀ c ∈ trimNl ((txt.map UInt8.toNat).filter (· ≠ 13)), c < 256 := by
    intro c hc
    refine hsmall c ?_
    rw [h1]; exact List.mem_append_left _ hc
  refine ⟨(trimNl ((txt.map UInt8.toNat).filter (· ≠ 13))).map UInt8.ofNat, n, ?_, ?_, ?_⟩
  · have e := congrArg (List.map UInt8.ofNat) h1
    rw [hfil, List.map_map, List.map_append, List.map_replicate] at e
    rw [hfil]
    have e2 : List.map (UInt8.ofNat ∘ UInt8.toNat) (txt.filter (· ≠ 13)) = txt.filter (· ≠ 13) := by
      conv => rhs; rw [← List.map_id (txt.filter (· ≠ 13))]
      exact List.map_congr_left fun b _ => by simp
    rw [e2] at e
    exact e
  · intro h
    rw [List.getLast?_map] at h
    cases hl : (trimNl ((txt.map UInt8.toNat).filter (· ≠ 13))).getLast? with
    | none => rw [hl] at h; cases h
    | some c =>
      rw [hl] at h h2
      have hc : c < 256 := hs c (List.mem_of_getLast? hl)
      have h3 : UInt8.ofNat c = 10 := by simpa using h
      have h4 : c = 10 := by
        have := congrArg UInt8.toNat h3
        simpa [Nat.mod_eq_of_lt hc] using this
      exact h2 (by rw [h4])
  · rw [hb _ hs]
    unfold Fpdf.splitLines splitLinesCore
    dsimp only
    generalize trimNl ((txt.map UInt8.toNat).filter (· ≠ 13)) = s at hs ⊢
    have key := splitLoop_wrapped (isSep := blank) (w := charWidth f) (wmax := room f w) rfl s 0
    rw [List.drop_zero] at key
    have e : (List.map (fun x => List.map UInt8.toNat x) (List.map (fun x => List.map UInt8.ofNat x)
        (List.map (fun p => slice s p.1 p.2) (splitLoop blank (charWidth f) (room f w) s 0)))) = List.map (fun p => slice s p.1 p.2) (splitLoop blank (charWidth f) (room f w) s 0) := by
      rw [List.map_map]
      conv => rhs; rw [← List.map_id (List.map (fun p => slice s p.1 p.2) (splitLoop blank (charWidth f) (room f w) s 0))]
      refine List.map_congr_left fun l hl => ?_
      obtain ⟨p, -, rfl⟩ := List.mem_map.mp hl
      refine hb _ fun c hc => hs c ?_
      exact List.mem_of_mem_drop (List.mem_of_mem_take hc)
    rw [← e] at key
    exact key

/-- **C25** The lines of `SplitLines`, with at most one dropped blank, tab or newline behind each, make up the text (less carriage returns and trailing newlines). -/
theorem C25_content (f : Fpdf) (txt : Bytes) (w : Rat) : ∃ ds n, ds.length = (f.splitLines txt w).length ∧
    txt.filter (· ≠ 13) = (List.zipWith (· ++ ·) (f.splitLines txt w) ds).flatten ++ List.replicate n 10 ∧
    ∀ d ∈ ds, d = [] ∨ d = B " " ∨ d = B "\t" ∨ d = B "\n" := by
  obtain ⟨body, n, h1, -, h3⟩ := C25_wrapped f txt w
  obtain ⟨ds, e1, e2, e3⟩ := wrapped_parts h3
  have hinv : ∀ l : List UInt8, (l.map UInt8.toNat).map UInt8.ofNat = l := by
    intro l
    rw [List.map_map]
    conv => rhs; rw [← List.map_id l]
    exact List.map_congr_left fun b _ => by simp
  refine ⟨ds.map (·.map UInt8.ofNat), n, by simpa using e1, ?_, ?_⟩
  · rw [h1]
    congr 1
    have e := congrArg (List.map UInt8.ofNat) e2
    rw [hinv, List.map_flatten, List.map_zipWith] at e
    rw [e, List.zipWith_map_right, List.zipWith_map_left]
    congr 2
    funext a b
    simp only [List.map_append, hinv]
  · intro d hd
    obtain ⟨d', hd', rfl⟩ := List.mem_map.mp hd
    rcases e3 d' hd' with rfl | ⟨c, hc, rfl⟩
    · exact .inl rfl
    · rcases hc with rfl | hc
      · exact .inr (.inr (.inr rfl))
      · simp only [blank, decide_eq_true_eq] at hc
        rcases hc with rfl | rfl | rfl
        · exact .inr (.inl rfl)
        · exact .inr (.inr (.inl rfl))
        · exact .inr (.inr (.inr rfl))

/-- **C25** No line of `SplitLines` contains a newline, and every line of more than one character fits: with a byte font, its width is at most that of the room in the cell (rounded up
to a thousandth of the font size). -/
theorem C25_fits (f : Fpdf) (hok : f.err = none) (hu : f.t.isUTF8 = false) (hsz : 0 < f.t.fontSize) (txt : Bytes) (h0 : (0 : UInt8) ∉ txt) (w : Rat) :
    ∀ l ∈ f.splitLines txt w, 10 ∉ l ∧ (l.length ≤ 1 ∨ f.getStringWidth l < w - 2 * f.getCellMargin + f.t.fontSize / 1000) := by
  obtain ⟨body, n, h1, -, h3⟩ := C25_wrapped f txt w
  intro l hl
  obtain ⟨a1, a2⟩ := wrapped_fits h3 (l.map UInt8.toNat) (List.mem_map_of_mem hl)
  refine ⟨fun h => a1 (List.mem_map.mpr ⟨10, h, rfl⟩), ?_⟩
  rcases a2 with a2 | a2
  · exact .inl (by simpa using a2)
  · right
    have hnul : (0 : UInt8) ∉ l := by
      intro h
      obtain ⟨ds, n', e1, e2, -⟩ := C25_content f txt w
      have hm : (0 : UInt8) ∈ (List.zipWith (· ++ ·) (f.splitLines txt w) ds).flatten := by
        obtain ⟨i, hi, hli⟩ := List.getElem_of_mem hl
        refine List.mem_flatten.mpr ⟨l ++ ds[i], ?_, List.mem_append_left _ h⟩
        rw [← hli]
        have hz : i < (List.zipWith (· ++ ·) (f.splitLines txt w) ds).length := by simp [e1, hi]
        have := List.getElem_mem hz
        simpa using this
      have : (0 : UInt8) ∈ txt.filter (· ≠ 13) := by rw [e2]; exact List.mem_append_left _ hm
      exact h0 (List.mem_filter.mp this).1
    have htw : l.takeWhile (· ≠ 0) = l := by
      rw [List.takeWhile_eq_self_iff]
      intro b hb
      simp only [ne_eq, decide_not, Bool.not_eq_eq_eq_not, Bool.not_true, decide_eq_false_iff_not]
      intro h; subst h; exact hnul hb
    have hw : f.getStringWidth l = (width (charWidth f) (l.map UInt8.toNat) : Rat) * f.t.fontSize / 1000 := by
      unfold Fpdf.getStringWidth Fpdf.getStringSymbolWidth
      rw [if_neg (by simp [hok]), if_neg (by simp [hok]), if_neg (by simp [hu]), htw]
      unfold width
      rw [List.map_map]
      rfl
    rw [hw]
    have hr : ((width (charWidth f) (l.map UInt8.toNat) : Int) : Rat) ≤ (room f w : Rat) := by exact_mod_cast a2
    have hc : (room f w : Rat) < (w - 2 * f.getCellMargin) * 1000 / f.t.fontSize + 1 := Rat.ceil_lt
    have h5 : ((width (charWidth f) (l.map UInt8.toNat) : Int) : Rat) * f.t.fontSize < ((w - 2 * f.getCellMargin) * 1000 / f.t.fontSize + 1) * f.t.fontSize :=
      mul_lt_mul_of_pos_right (lt_of_le_of_lt hr hc) hsz
    have h6 : ((w - 2 * f.getCellMargin) * 1000 / f.t.fontSize + 1) * f.t.fontSize = (w - 2 * f.getCellMargin) * 1000 + f.t.fontSize := by
      field_simp
    rw [h6] at h5
    linarith

/-- **C25/C26** The loop of `SplitLines` and `SplitText` as it is written ends for every text and width, with these lines. -/
theorem C25_loop (isSep : Nat → Bool) (w : Nat → Int) (wmax : Int) (s : List Nat) :
    ∃ v, Iter isSep w wmax s {} v ∧ splitStep isSep w wmax s v = none ∧ splitEnd v = splitLoop isSep w wmax s 0 := by
  obtain ⟨v, h1, h2, h3⟩ := iter_splitLoop (isSep := isSep) (w := w) (wmax := wmax) s 0 [] (by simp)
  exact ⟨v, h1, h2, by simpa using h3⟩

/-- **C26** `SplitText` wraps the characters of the text, less trailing newlines, by first fit, breaking at white space and Chinese characters. -/
theorem C26_wrapped (f : Fpdf) (txt : Bytes) (w : Rat) : ∃ body n lines, runes txt = body ++ List.replicate n 10 ∧ body.getLast? ≠ some 10 ∧
    f.splitText txt w = lines.map runesToBytes ∧ Wrapped spaceOrChinese (charWidth f) (room f w) false body lines := by
  obtain ⟨n, h1, h2⟩ := trimNl_spec (runes txt)
  have key := splitLoop_wrapped (isSep := spaceOrChinese) (w := charWidth f) (wmax := room f w) rfl (trimNl (runes txt)) 0
  rw [List.drop_zero] at key
  exact ⟨_, n, _, h1, h2, rfl, key⟩

/-- **C26** The lines of `SplitText`, with at most one dropped separator behind each, make up the text (less trailing newlines); every line of more than one character fits. -/
theorem C26_content (f : Fpdf) (txt : Bytes) (w : Rat) : ∃ lines ds n, f.splitText txt w = lines.map runesToBytes ∧ ds.length = lines.length ∧
    runes txt = (List.zipWith (· ++ ·) lines ds).flatten ++ List.replicate n 10 ∧ (∀ d ∈ ds, d = [] ∨ ∃ c, spaceOrChinese c = true ∧ d = [c]) ∧
    ∀ l ∈ lines, 10 ∉ l ∧ (l.length ≤ 1 ∨ width (charWidth f) l ≤ room f w) := by
  obtain ⟨body, n, lines, h1, -, h2, h3⟩ := C26_wrapped f txt w
  obtain ⟨ds, e1, e2, e3⟩ := wrapped_parts h3
  refine ⟨lines, ds, n, h2, e1, by rw [h1, ← e2], ?_, wrapped_fits h3⟩
  intro d hd
  rcases e3 d hd with h | ⟨c, hc, hd'⟩
  · exact .inl h
  · refine .inr ⟨c, ?_, hd'⟩
    rcases hc with rfl | hc
    · rfl
    · exact hc

/-- **C26** is false as far as only white space is dropped: a Chinese character at which a line breaks is lost. -/
theorem C26_chinese_false : ∃ f : Fpdf, (∀ c, c < 65536 → charWidth f c = 500) ∧ room f 1 = 1000 ∧ f.splitText (runesToBytes [0x4E2D, 0x6587, 0x5B57, 0x7B26]) 1 = [runesToBytes [0x4E2D, 0x6587], runesToBytes [0x7B26]] := by
  let f : Fpdf := { t.currentFont.cw := List.replicate 65536 500, t.fontSize := 1 }
  have hw : (fun c => f.t.currentFont.cw.getD c 0) = fun c => if c < 65536 then 500 else 0 := by
    funext c
    show (List.replicate 65536 (500 : Int)).getD c 0 = _
    rw [List.getD_eq_getElem?_getD, List.getElem?_replicate]
    split <;> rfl
  have hr : ceilInt ((1 - 2 * f.p.cMargin) * 1000 / f.t.fontSize) = 1000 := by
    show ceilInt ((1 - 2 * 0) * 1000 / 1) = 1000
    decide +kernel
  refine ⟨f, ?_, hr, ?_⟩
  · intro c hc
    have := congrFun hw c
    rw [if_pos hc] at this
    exact this
  · unfold Fpdf.splitText
    rw [hw, hr]
    decide +kernel

/-! ### Non-vacuity -/

/-- A text of two lines and a word that is cut. -/
example : splitLinesCore (fun _ => 500) 2000 ((B "one two\r\nsixteen\n\n").map UInt8.toNat) = [B "one", B "two", B "sixt", B "een"].map (·.map UInt8.toNat) := by decide +kernel

example : ∃ f : Fpdf, f.err = none ∧ f.t.isUTF8 = false ∧ 0 < f.t.fontSize := ⟨{ t.fontSize := 1 }, rfl, rfl, by decide⟩

end Verif.Props
