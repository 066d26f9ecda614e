import Verif.Proof.MultiCell
import Mathlib.Tactic.Linarith
/-
`Write` prints its text as cells, line after line.
-/
namespace Verif.Proof
open Verif Verif.Model Verif.Spec

/-- The width of a character as `Write` counts it. -/
def wrWidth (cw : List Int) (c : Nat) : Int := cw.getD c 0

/-- The width left between the cursor and the right margin. -/
def leftOver (f : Fpdf) : Rat := f.p.w - f.p.rMargin - f.p.x

/-- The room for text in it, less the cell margins, in thousandths of the font size. -/
def leftRoom (f : Fpdf) : Rat := (leftOver f - 2 * f.p.cMargin) * 1000 / f.t.fontSize

/-- A line fits into the room `R`. If the text was moved down to the next line because of lack of room (`moved` is the room there was before), then the last character was not measured again. -/
def FitsIn (w : Nat → Int) (R : Rat) (moved : Option Rat) (l : List Nat) : Prop :=
  l = [] ∨ (width w l : Rat) ≤ R ∨ ∃ R0, moved = some R0 ∧ (l.dropLast = [] ∨ (width w l.dropLast : Rat) ≤ R0)

/-- Why a line ends, with `d` dropped and `rest` following: at a newline; at the last blank before the room is exceeded; or, if there is no blank, at the last character that fits (at least one). -/
def BrokenAt (w : Nat → Int) (R : Rat) (line d rest : List Nat) : Prop :=
  d = [10] ∨ (d = [32] ∧ ∃ word, word <+: rest ∧ 32 ∉ word ∧ R < (width w (line ++ 32 :: word) : Rat)) ∨
    (d = [] ∧ line ≠ [] ∧ 32 ∉ line ∧ ((∃ c, [c] <+: rest ∧ R < (width w (line ++ [c]) : Rat)) ∨ line.length = 1 ∧ R < (width w line : Rat)))

/-- The text of lines and what is dropped behind them. -/
def joined (items : List (List Nat × List Nat)) : List Nat := (items.map fun p => p.1 ++ p.2).flatten

/-- Return to the left margin. -/
def atMargin (f : Fpdf) : Fpdf := { f with p.x := f.p.lMargin }

/-- How `Write` proceeds from the state `f`, having measured the width `W` and the room `R` for the line (and `moved` to the line if it did): the lines with what is dropped behind them. The first line
starts where the cursor is; after it the text continues at the left margin, where the width is measured once for all lines to come. -/
inductive WriteRun (E : Ext) (cb : Cb) (w : Nat → Int) (utf8 : Bool) (h : Rat) (link : Nat) (linkStr : Bytes) : Bool → Fpdf → Rat → Rat → Option Rat → List (List Nat × List Nat) → Fpdf → Prop
  | done {first : Bool} {f : Fpdf} {W R : Rat} {moved : Option Rat} : WriteRun E cb w utf8 h link linkStr first f W R moved [] f
  | last {first : Bool} {f : Fpdf} {W R : Rat} {moved : Option Rat} {line : List Nat} : line ≠ [] → 10 ∉ line → FitsIn w R moved line →
      WriteRun E cb w utf8 h link linkStr first f W R moved [(line, [])] (f.exec E cb (.cell ((width w line : Rat) / 1000 * f.t.fontSize) h (mcText utf8 line) [] 0 [] false link linkStr))
  | cell {f f1 g : Fpdf} {W R : Rat} {moved : Option Rat} {line d : List Nat} {items : List (List Nat × List Nat)} : 10 ∉ line → (FitsIn w R moved line ∨ line.length = 1 ∧ d = []) →
      BrokenAt w R line d (joined items) → f1 = f.exec E cb (.cell W h (mcText utf8 line) [] 2 [] false link linkStr) →
      WriteRun E cb w utf8 h link linkStr false f1 W R none items g → WriteRun E cb w utf8 h link linkStr false f W R moved ((line, d) :: items) g
  | first {f f1 g : Fpdf} {W R : Rat} {moved : Option Rat} {line d : List Nat} {items : List (List Nat × List Nat)} : 10 ∉ line → (FitsIn w R moved line ∨ line.length = 1 ∧ d = []) →
      BrokenAt w R line d (joined items) → f1 = atMargin (f.exec E cb (.cell W h (mcText utf8 line) [] 2 [] false link linkStr)) →
      WriteRun E cb w utf8 h link linkStr false f1 (leftOver f1) (leftRoom f1) none items g → WriteRun E cb w utf8 h link linkStr true f W R moved ((line, d) :: items) g
  | move {first : Bool} {f f1 g : Fpdf} {W R : Rat} {items : List (List Nat × List Nat)} {word : List Nat} : f.p.lMargin < f.p.x → word <+: joined items → 32 ∉ word → 10 ∉ word →
      R < (width w word : Rat) → f1 = { f with p.x := f.p.lMargin, p.y := f.p.y + h } →
      WriteRun E cb w utf8 h link linkStr false f1 (leftOver f1) (leftRoom f1) (some R) items g → WriteRun E cb w utf8 h link linkStr first f W R none items g

/-- What is known in the loop after walking over `pre`. -/
structure WrWalked (w : Nat → Int) (R : Rat) (moved : Option Rat) (j : Nat) (pre : List Nat) (i : Nat) (sep : Option Nat) (l : Rat) : Prop where
  pos : i = j + pre.length
  sum : l = (width w pre : Rat)
  nonl : 10 ∉ pre
  fits : ∀ n, n ≤ pre.length → FitsIn w R moved (pre.take n)
  sepn : sep = none → 32 ∉ pre
  seps : ∀ p, sep = some p → ∃ a b, pre = a ++ 32 :: b ∧ p = j + a.length ∧ 32 ∉ b

theorem WrWalked.start (w : Nat → Int) (R : Rat) (j : Nat) : WrWalked w R none j [] j none 0 :=
  ⟨by simp, by simp [width], by simp, by intro n _; simp [FitsIn], by simp, by simp⟩

/-- The next character, whatever the room. -/
theorem WrWalked.next {w : Nat → Int} {R R' : Rat} {moved moved' : Option Rat} {j : Nat} {pre : List Nat} {i : Nat} {sep : Option Nat} {l : Rat} (hw : WrWalked w R moved j pre i sep l) (c : Nat) (hc : c ≠ 10)
    (hfit : ∀ n, n ≤ (pre ++ [c]).length → FitsIn w R' moved' ((pre ++ [c]).take n)) :
    WrWalked w R' moved' j (pre ++ [c]) (i + 1) (if c = 32 then some i else sep) (l + w c) := by
  refine ⟨?_, ?_, ?_, hfit, ?_, ?_⟩
  · rw [hw.pos]; simp; omega
  · rw [hw.sum, width_append]; simp [width]
  · simp [hw.nonl, Ne.symm hc]
  · intro hs
    split at hs
    · cases hs
    · next hn => simp [hw.sepn hs, Ne.symm hn]
  · intro p hp
    split at hp
    · next hs => cases hp; subst hs; exact ⟨pre, [], rfl, hw.pos, by simp⟩
    · next hs =>
      obtain ⟨a, b, e1, e2, e3⟩ := hw.seps p hp
      exact ⟨a, b ++ [c], by rw [e1]; simp, e2, by simp [e3, Ne.symm hs]⟩

theorem WrWalked.fitsAll {w : Nat → Int} {R : Rat} {moved : Option Rat} {j : Nat} {pre : List Nat} {i : Nat} {sep : Option Nat} {l : Rat} (hw : WrWalked w R moved j pre i sep l) : FitsIn w R moved pre := by
  have := hw.fits pre.length (Nat.le_refl _)
  rwa [List.take_length] at this

/-- A character that fits. -/
theorem WrWalked.grow {w : Nat → Int} {R : Rat} {moved : Option Rat} {j : Nat} {pre : List Nat} {i : Nat} {sep : Option Nat} {l : Rat} (hw : WrWalked w R moved j pre i sep l) (c : Nat)
    (hR : l + w c ≤ R) : ∀ n, n ≤ (pre ++ [c]).length → FitsIn w R moved ((pre ++ [c]).take n) := by
  intro n hn
  by_cases h1 : n ≤ pre.length
  · rw [List.take_append_of_le_length h1]; exact hw.fits n h1
  · have h2 : n = (pre ++ [c]).length := by simp at hn ⊢; omega
    rw [h2, List.take_length]
    refine .inr (.inl ?_)
    rw [width_append]; rw [hw.sum] at hR; simpa [width] using hR

/-- A character that does not fit, when the text moves down. -/
theorem WrWalked.down {w : Nat → Int} {R R' : Rat} {j : Nat} {pre : List Nat} {i : Nat} {sep : Option Nat} {l : Rat} (hw : WrWalked w R none j pre i sep l) (c : Nat) :
    ∀ n, n ≤ (pre ++ [c]).length → FitsIn w R' (some R) ((pre ++ [c]).take n) := by
  intro n hn
  refine .inr (.inr ⟨R, rfl, ?_⟩)
  have e : ((pre ++ [c]).take n).dropLast = pre.take (n - 1) := by
    have hl : ((pre ++ [c]).take n).length = n := by rw [List.length_take]; omega
    rw [List.dropLast_eq_take, hl, List.take_take, Nat.min_eq_left (by omega), List.take_append_of_le_length (by simp at hn; omega)]
  rw [e]
  have := hw.fits (n - 1) (by simp at hn; omega)
  rcases this with h | h | ⟨R0, h, -⟩
  · exact .inl h
  · exact .inr h
  · cases h

theorem joined_cons (p : List Nat × List Nat) (items : List (List Nat × List Nat)) : joined (p :: items) = p.1 ++ p.2 ++ joined items := by simp [joined]

theorem wr_sub_eq (P : Fpdf.WrParams) (a b : Nat) : P.sub a b = mcText P.utf8 (slice P.s a b) := rfl

theorem slice_pre {s pre r : List Nat} {j : Nat} (h : s.drop j = pre ++ r) : slice s j (j + pre.length) = pre := by
  unfold slice
  rw [h, show j + pre.length - j = pre.length by omega, List.take_left]

theorem wrReset_eq (f : Fpdf) (v : Fpdf.WrVars) : f.wrReset v = (if v.nl = 1 then atMargin f else f,
    { v with w := if v.nl = 1 then leftOver (atMargin f) else v.w, wmax := if v.nl = 1 then leftRoom (atMargin f) else v.wmax, nl := v.nl + 1 }) := by
  unfold Fpdf.wrReset
  by_cases h : v.nl = 1
  · rw [if_pos h, if_pos h, if_pos h, if_pos h]; rfl
  · rw [if_neg h, if_neg h, if_neg h, if_neg h]

theorem measure_next (n j j' i i' : Nat) (hj : j < j') (hj' : j' ≤ n) (fuel : Nat) (h : (n - j) * (n + 2) + (n + 1 - i) < fuel + 1) (hi : i < n) : (n - j') * (n + 2) + (n + 1 - i') < fuel := by
  have h1 : (n - j' + 1) * (n + 2) ≤ (n - j) * (n + 2) := Nat.mul_le_mul_right _ (by omega)
  rw [Nat.add_mul, Nat.one_mul] at h1
  omega

/-- The loop proceeds as described. -/
theorem wrLoop_run (E : Ext) (cb : Cb) (P : Fpdf.WrParams) (hin : ∀ c ∈ P.s, c ≠ 10 → c < P.cw.length) : ∀ (fuel : Nat) (f : Fpdf) (v : Fpdf.WrVars) (pre r : List Nat) (moved : Option Rat),
    (P.s.length - v.j) * (P.s.length + 2) + (P.s.length + 1 - v.i) < fuel → P.s.drop v.j = pre ++ r → v.j ≤ P.s.length → 1 ≤ v.nl → (moved ≠ none → f.p.x = f.p.lMargin ∧ v.nl ≠ 1) →
    WrWalked (wrWidth P.cw) v.wmax moved v.j pre v.i v.sep v.l →
    ∃ items, WriteRun E cb (wrWidth P.cw) P.utf8 P.h P.link P.linkStr (v.nl == 1) f v.w v.wmax moved items (Fpdf.wrLoop E cb P fuel f v) ∧ joined items = P.s.drop v.j := by
  intro fuel
  induction fuel with
  | zero => intro f v pre r moved h; omega
  | succ fuel ih =>
    intro f v pre r moved hm hd hj hnl hmv hw
    have hlen : P.s.length - v.j = pre.length + r.length := by rw [← List.length_drop, hd, List.length_append]
    have hr : P.s.drop v.i = r := by rw [hw.pos, ← List.drop_drop, hd, List.drop_left]
    -- printing a line and continuing behind it
    have brk : ∀ (line d r' : List Nat) (i' : Nat) (l' : Rat) (se : Option Nat), v.i < P.s.length → P.s.drop v.j = line ++ d ++ r' → i' = v.j + (line ++ d).length → 0 < (line ++ d).length → 10 ∉ line →
        (FitsIn (wrWidth P.cw) v.wmax moved line ∨ line.length = 1 ∧ d = []) → BrokenAt (wrWidth P.cw) v.wmax line d r' →
        ∃ items, WriteRun E cb (wrWidth P.cw) P.utf8 P.h P.link P.linkStr (v.nl == 1) f v.w v.wmax moved items
          (Fpdf.wrLoop E cb P fuel ((f.cellFormat E cb v.w P.h (P.sub v.j (v.j + line.length)) [] 2 [] false P.link P.linkStr).wrReset { v with i := i', sep := none, j := i', l := 0 }).1
            ((f.cellFormat E cb v.w P.h (P.sub v.j (v.j + line.length)) [] 2 [] false P.link P.linkStr).wrReset { v with i := i', sep := none, j := i', l := 0 }).2) ∧ joined items = P.s.drop v.j := by
      intro line d r' i' l' se hi hd' hi' hpos hnl10 hfit hbrk
      have hle : i' ≤ P.s.length := by
        have : P.s.length - v.j = (line ++ d).length + r'.length := by rw [← List.length_drop, hd', List.length_append]
        omega
      have hr' : P.s.drop i' = r' := by rw [hi', ← List.drop_drop, hd', List.drop_left]
      have ht : P.sub v.j (v.j + line.length) = mcText P.utf8 line := by rw [wr_sub_eq, slice_pre (r := d ++ r') (by rw [hd']; simp)]
      rw [wrReset_eq, ht]
      dsimp only
      have hmeas := measure_next P.s.length v.j i' v.i i' (by omega) hle fuel hm hi
      by_cases hn : v.nl = 1
      · simp only [if_pos hn]
        obtain ⟨items, r1, r2⟩ := ih (atMargin (f.cellFormat E cb v.w P.h (mcText P.utf8 line) [] 2 [] false P.link P.linkStr))
          { v with i := i', sep := none, j := i', l := 0, w := leftOver (atMargin (f.cellFormat E cb v.w P.h (mcText P.utf8 line) [] 2 [] false P.link P.linkStr)), wmax := leftRoom (atMargin (f.cellFormat E cb v.w P.h (mcText P.utf8 line) [] 2 [] false P.link P.linkStr)), nl := v.nl + 1 } [] r' none hmeas (by rw [List.nil_append]; exact hr') hle (by dsimp only; omega) (fun h => absurd rfl h) (WrWalked.start _ _ _)
        rw [show (v.nl == 1) = true by simp [hn]]
        have e2 : (v.nl + 1 == 1) = false := by simp; omega
        dsimp only at r1 r2
        rw [e2] at r1
        rw [hr'] at r2
        exact ⟨(line, d) :: items, .first hnl10 hfit (by rw [r2]; exact hbrk) rfl r1, by rw [joined_cons, r2, hd']⟩
      · simp only [if_neg hn]
        obtain ⟨items, r1, r2⟩ := ih (f.cellFormat E cb v.w P.h (mcText P.utf8 line) [] 2 [] false P.link P.linkStr)
          { v with i := i', sep := none, j := i', l := 0, nl := v.nl + 1 } [] r' none hmeas (by rw [List.nil_append]; exact hr') hle (by dsimp only; omega) (fun h => absurd rfl h) (WrWalked.start _ _ _)
        rw [show (v.nl == 1) = false by simp [hn]]
        have e2 : (v.nl + 1 == 1) = false := by simp; omega
        dsimp only at r1 r2
        rw [e2] at r1
        rw [hr'] at r2
        exact ⟨(line, d) :: items, .cell hnl10 hfit (by rw [r2]; exact hbrk) rfl r1, by rw [joined_cons, r2, hd']⟩
    unfold Fpdf.wrLoop
    cases hg : P.s[v.i]? with
    | none =>
      dsimp only
      have hi : P.s.length ≤ v.i := List.getElem?_eq_none_iff.mp hg
      have hrn : r = [] := by rw [← hr, List.drop_eq_nil_of_le hi]
      rw [hrn, List.append_nil] at hd
      by_cases hij : v.i ≠ v.j
      · rw [if_pos hij]
        have hpn : pre ≠ [] := fun h => hij (by rw [hw.pos, h]; simp)
        have e : P.sub v.j P.s.length = mcText P.utf8 pre := by
          rw [wr_sub_eq]
          unfold slice
          rw [hd, List.take_of_length_le (by rw [← List.length_drop, hd])]
        rw [e, hw.sum]
        exact ⟨[(pre, [])], .last hpn hw.nonl hw.fitsAll, by rw [hd]; simp [joined]⟩
      · rw [if_neg hij]
        refine ⟨[], .done, ?_⟩
        have hp0 : pre = [] := List.length_eq_zero_iff.mp (by have := hw.pos; omega)
        rw [hd, hp0]; rfl
    | some c =>
      have hi : v.i < P.s.length := by
        rcases Nat.lt_or_ge v.i P.s.length with h | h
        · exact h
        · rw [List.getElem?_eq_none h] at hg; cases hg
      have hrc : r = c :: P.s.drop (v.i + 1) := by
        rw [← hr, List.drop_eq_getElem_cons hi]
        rw [List.getElem?_eq_getElem hi] at hg
        cases hg; rfl
      generalize P.s.drop (v.i + 1) = r' at hrc
      subst hrc
      dsimp only
      by_cases h10 : c = 10
      · rw [if_pos h10]
        subst h10
        have := brk pre [10] r' (v.i + 1) 0 none hi (by rw [hd]; simp) (by rw [hw.pos]; simp; omega) (by simp) hw.nonl (.inl hw.fitsAll) (.inl rfl)
        rw [← hw.pos] at this
        exact this
      · rw [if_neg h10]
        have hcm : c ∈ P.s := List.mem_of_getElem? hg
        have hc := hin c hcm h10
        have hg2 : P.cw[c]? = some P.cw[c] := List.getElem?_eq_getElem hc
        have hwc : (P.cw[c] : Rat) = (wrWidth P.cw c : Rat) := by unfold wrWidth; rw [List.getD_eq_getElem?_getD, hg2]; rfl
        rw [hg2]
        dsimp only
        have hv : (if c = 32 then { v with sep := some v.i } else v) = { v with sep := if c = 32 then some v.i else v.sep } := by split <;> rfl
        rw [hv, hwc]
        dsimp only
        by_cases hov : v.l + (wrWidth P.cw c : Rat) > v.wmax
        · rw [if_pos hov]
          have hov' : v.wmax < (width (wrWidth P.cw) (pre ++ [c]) : Rat) := by
            rw [width_append]; rw [hw.sum] at hov; simpa [width] using hov
          cases hsp : (if c = 32 then some v.i else v.sep) with
          | none =>
            have hc32 : c ≠ 32 := by intro h; rw [if_pos h] at hsp; cases hsp
            rw [if_neg hc32] at hsp
            have h32 := hw.sepn hsp
            dsimp only
            by_cases hx : f.p.x > f.p.lMargin
            · rw [if_pos hx]
              have hmn : moved = none := by
                by_cases h : moved = none
                · exact h
                · have := (hmv h).1; rw [this] at hx; exact absurd hx (lt_irrefl _)
              subst hmn
              have key := hw.next (R' := leftRoom { f with p.x := f.p.lMargin, p.y := f.p.y + P.h }) (moved' := some v.wmax) c h10 (hw.down c)
              rw [if_neg hc32] at key
              have hm2 : (P.s.length - v.j) * (P.s.length + 2) + (P.s.length + 1 - (v.i + 1)) < fuel := by omega
              have e1 := hd
              rw [show pre ++ c :: r' = (pre ++ [c]) ++ r' by simp] at e1
              obtain ⟨items, r1, r2⟩ := ih { f with p.x := f.p.lMargin, p.y := f.p.y + P.h }
                { v with i := v.i + 1, sep := v.sep, l := v.l + (wrWidth P.cw c : Rat), w := leftOver { f with p.x := f.p.lMargin, p.y := f.p.y + P.h }, wmax := leftRoom { f with p.x := f.p.lMargin, p.y := f.p.y + P.h }, nl := v.nl + 1 }
                (pre ++ [c]) r' (some v.wmax) hm2 e1 hj (by dsimp only; omega) (fun _ => ⟨rfl, by dsimp only; omega⟩) key
              have e2 : (v.nl + 1 == 1) = false := by simp; omega
              dsimp only at r1 r2
              rw [e2] at r1
              refine ⟨items, .move (word := pre ++ [c]) hx ?_ ?_ ?_ hov' rfl ?_, r2⟩
              · rw [r2, e1]; exact List.prefix_append _ _
              · simp [h32, Ne.symm hc32]
              · simp [hw.nonl, Ne.symm h10]
              · rw [hsp] at r1; exact r1
            · rw [if_neg hx]
              by_cases hij : v.i = v.j
              · rw [if_pos hij]
                have hp0 : pre = [] := List.length_eq_zero_iff.mp (by have := hw.pos; omega)
                subst hp0
                have := brk [c] [] r' (v.j + 1) 0 none hi (by rw [hd]; simp) (by simp) (by simp) (by simp [Ne.symm h10]) (.inr ⟨rfl, rfl⟩)
                  (.inr (.inr ⟨rfl, by simp, by simp [Ne.symm hc32], .inr ⟨rfl, hov'⟩⟩))
                rw [hij]
                exact this
              · rw [if_neg hij]
                have hpn : pre ≠ [] := fun h => hij (by rw [hw.pos, h]; simp)
                have := brk pre [] (c :: r') v.i 0 none hi (by rw [hd]; simp) (by rw [hw.pos]; simp) (by simpa using List.length_pos_iff.mpr hpn) hw.nonl (.inl hw.fitsAll)
                  (.inr (.inr ⟨rfl, hpn, h32, .inl ⟨c, by simp, hov'⟩⟩))
                rw [← hw.pos] at this
                exact this
          | some p =>
            dsimp only
            have key : ∃ a b, pre ++ [c] = a ++ 32 :: b ∧ p = v.j + a.length ∧ 32 ∉ b ∧ a.length ≤ pre.length := by
              by_cases hc32 : c = 32
              · rw [if_pos hc32] at hsp
                cases hsp
                subst hc32
                exact ⟨pre, [], rfl, hw.pos, by simp, Nat.le_refl _⟩
              · rw [if_neg hc32] at hsp
                obtain ⟨a, b, e1, e2, e3⟩ := hw.seps p hsp
                exact ⟨a, b ++ [c], by rw [e1]; simp, e2, by simp [e3, Ne.symm hc32], by rw [e1]; simp⟩
            obtain ⟨a, b, e1, e2, e3, e4⟩ := key
            have e5 : P.s.drop v.j = a ++ [32] ++ (b ++ r') := by rw [hd, show pre ++ c :: r' = (pre ++ [c]) ++ r' by simp, e1]; simp
            have e6 : a = pre.take a.length := by
              have := congrArg (List.take a.length) e1
              rw [List.take_append_of_le_length e4, List.take_left] at this
              exact this.symm
            have e7 : 10 ∉ a := by rw [e6]; intro h; exact hw.nonl (List.mem_of_mem_take h)
            have := brk a [32] (b ++ r') (p + 1) 0 none hi e5 (by rw [e2]; simp; omega) (by simp) e7 (.inl (by rw [e6]; exact hw.fits _ e4))
              (.inr (.inl ⟨rfl, b, List.prefix_append _ _, e3, by rw [e1] at hov'; exact hov'⟩))
            rw [← e2] at this
            exact this
        · rw [if_neg hov]
          have hm2 : (P.s.length - v.j) * (P.s.length + 2) + (P.s.length + 1 - (v.i + 1)) < fuel := by omega
          exact ih f { v with i := v.i + 1, sep := if c = 32 then some v.i else v.sep, l := v.l + (wrWidth P.cw c : Rat) } (pre ++ [c]) r' moved hm2 (by rw [hd]; simp) hj hnl hmv
            (hw.next c h10 (hw.grow c (not_lt.mp hov)))

end Verif.Proof
