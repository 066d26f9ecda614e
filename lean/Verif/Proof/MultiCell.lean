import Verif.Proof.Wrap
import Verif.Model.Text
import Verif.Model.Machine
/-
`MultiCell` prints the wrapped lines of its text as cells.
-/
namespace Verif.Proof
open Verif Verif.Model Verif.Spec

/-- The width of a character as `MultiCell` counts it. -/
def mcWidth (cw : List Int) (miss : Int) (c : Nat) : Int :=
  match cw[c]? with
  | some wc => if wc = 0 then miss else if wc ≠ 65535 then wc else 0
  | none => 0

/-- Blanks and Chinese characters. -/
def mcSep (c : Nat) : Bool := c = 32 ∨ isChinese c

/-- What `scanMc` knows after walking over `pre`. -/
structure McWalked (w : Nat → Int) (wmax : Int) (j : Nat) (pre : List Nat) (i : Nat) (sep : Option (Nat × Int)) (l : Int) : Prop where
  pos : i = j + pre.length
  sum : l = width w pre
  nonl : 10 ∉ pre
  fits : ∀ n, n ≤ pre.length → pre.take n = [] ∨ width w (pre.take n) ≤ wmax
  sepn : sep = none → ∀ x ∈ pre, mcSep x = false
  seps : ∀ p ls, sep = some (p, ls) → ∃ a c b, pre = a ++ c :: b ∧ p = j + a.length ∧ mcSep c = true ∧ ∀ x ∈ b, mcSep x = false

theorem McWalked.start (w : Nat → Int) (wmax : Int) (j : Nat) : McWalked w wmax j [] j none 0 :=
  ⟨by simp, rfl, by simp, by intro n _; simp, by simp, by simp⟩

theorem mcSep_iff (c : Nat) : (c = 32 ∨ isChinese c = true) ↔ mcSep c = true := by simp [mcSep]

theorem McWalked.next {w : Nat → Int} {wmax : Int} {j : Nat} {pre : List Nat} {i : Nat} {sep : Option (Nat × Int)} {l : Int} (hw : McWalked w wmax j pre i sep l) (c : Nat) (hc1 : c ≠ 10)
    (hc2 : l + w c ≤ wmax) : McWalked w wmax j (pre ++ [c]) (i + 1) (if c = 32 ∨ isChinese c = true then some (i, l) else sep) (l + w c) := by
  refine ⟨?_, ?_, ?_, ?_, ?_, ?_⟩
  · rw [hw.pos]; simp; omega
  · rw [hw.sum, width_append]; simp [width]
  · simp [hw.nonl, Ne.symm hc1]
  · intro n hn
    by_cases h1 : n ≤ pre.length
    · have := hw.fits n h1
      rwa [List.take_append_of_le_length h1]
    · have h2 : n = (pre ++ [c]).length := by simp at hn ⊢; omega
      rw [h2, List.take_length, width_append]
      right; rw [← hw.sum]; simpa [width] using hc2
  · intro hs x hx
    split at hs
    · cases hs
    · next hn =>
      rw [mcSep_iff] at hn
      rcases List.mem_append.mp hx with hx | hx
      · exact hw.sepn hs x hx
      · simp only [List.mem_cons, List.not_mem_nil, or_false] at hx; subst hx; simpa using hn
  · intro p ls hp
    split at hp
    · next hs => cases hp; exact ⟨pre, c, [], rfl, hw.pos, (mcSep_iff c).mp hs, by simp⟩
    · next hs =>
      rw [mcSep_iff] at hs
      obtain ⟨a, d, b, e1, e2, e3, e4⟩ := hw.seps p ls hp
      refine ⟨a, d, b ++ [c], by rw [e1]; simp, e2, e3, ?_⟩
      intro x hx
      rcases List.mem_append.mp hx with hx | hx
      · exact e4 x hx
      · simp only [List.mem_cons, List.not_mem_nil, or_false] at hx; subst hx; simpa using hs

/-- The outcome of one line. -/
def McOk (w : Nat → Int) (wmax : Int) (j : Nat) (t : List Nat) : McEnd → Prop
  | .newline i => ∃ n, i = j + n ∧ Ends mcSep w wmax t n (n + 1)
  | .cut i => ∃ n, 0 < n ∧ i = j + n ∧ Ends mcSep w wmax t n n
  | .atSep p _ _ => ∃ n, p = j + n ∧ Ends mcSep w wmax t n (n + 1)
  | .eof => 10 ∉ t ∧ (t = [] ∨ width w t ≤ wmax)
  | .badChar => False

theorem scanMc_ok {cw : List Int} {miss wmax : Int} {j : Nat} (cs : List Nat) : ∀ {pre : List Nat} {i : Nat} {sep : Option (Nat × Int)} {l : Int} {ns : Nat},
    McWalked (mcWidth cw miss) wmax j pre i sep l → (∀ c ∈ cs, c ≠ 10 → c < cw.length) → McOk (mcWidth cw miss) wmax j (pre ++ cs) (scanMc cw miss wmax j cs i sep l ns) := by
  induction cs with
  | nil =>
    intro pre i sep l ns hw _
    have := hw.fits pre.length (Nat.le_refl _)
    rw [List.take_length] at this
    simpa [scanMc, McOk] using ⟨hw.nonl, this⟩
  | cons c cs ih =>
    intro pre i sep l ns hw hin
    have htake : pre = [] ∨ width (mcWidth cw miss) pre ≤ wmax := by have := hw.fits pre.length (Nat.le_refl _); rwa [List.take_length] at this
    unfold scanMc
    by_cases h10 : c = 10
    · rw [if_pos h10, h10]
      exact ⟨pre.length, hw.pos, .newline hw.nonl htake⟩
    · rw [if_neg h10]
      have hc := hin c (by simp) h10
      have hg : cw[c]? = some cw[c] := List.getElem?_eq_getElem hc
      dsimp only
      rw [hg]
      dsimp only
      have hl : (if cw[c] = 0 then l + miss else if cw[c] ≠ 65535 then l + cw[c] else l) = l + mcWidth cw miss c := by
        unfold mcWidth
        rw [hg]
        dsimp only
        split
        · rfl
        · split
          · rfl
          · omega
      rw [hl]
      by_cases hover : l + mcWidth cw miss c > wmax
      · rw [if_pos hover]
        have hover' : wmax < width (mcWidth cw miss) (pre ++ [c]) := by rw [width_append, ← hw.sum]; simpa [width] using hover
        by_cases hs : c = 32 ∨ isChinese c = true
        · rw [if_pos hs]
          refine ⟨pre.length, hw.pos, .space (word := []) (r := cs) ((mcSep_iff c).mp hs) h10 hw.nonl htake (by simp) hover'⟩
        · rw [if_neg hs]
          rw [mcSep_iff] at hs
          cases hsep : sep with
          | none =>
            dsimp only
            by_cases hij : i = j
            · rw [if_pos hij]
              have hp : pre = [] := List.length_eq_zero_iff.mp (by have := hw.pos; omega)
              subst hp
              refine ⟨1, by decide, by rw [hij], ?_⟩
              refine .single (by simpa using hs) h10 ?_
              rw [width_append] at hover'
              simpa [width] using hover'
            · rw [if_neg hij]
              have hp : pre ≠ [] := fun h => hij (by rw [hw.pos, h]; simp)
              exact ⟨pre.length, List.length_pos_iff.mpr hp, hw.pos, .cut (hw.sepn hsep) (by simpa using hs) hw.nonl hp (htake.resolve_left hp) hover'⟩
          | some q =>
            obtain ⟨p, ls⟩ := q
            dsimp only
            obtain ⟨a, d, b, e1, e2, e3, e4⟩ := hw.seps p ls hsep
            refine ⟨a.length, e2, ?_⟩
            have e5 : pre ++ c :: cs = a ++ d :: ((b ++ [c]) ++ cs) := by rw [e1]; simp
            rw [e5]
            refine .space e3 ?_ ?_ ?_ ?_ ?_
            · intro hd; subst hd; exact hw.nonl (by rw [e1]; simp)
            · intro hd; exact hw.nonl (by rw [e1]; simp [hd])
            · have := hw.fits a.length (by rw [e1]; simp)
              rwa [e1, List.take_left] at this
            · intro x hx
              rcases List.mem_append.mp hx with hx | hx
              · exact e4 x hx
              · simp only [List.mem_cons, List.not_mem_nil, or_false] at hx; subst hx; simpa using hs
            · rw [e1] at hover'; simpa using hover'
      · rw [if_neg hover]
        have key := ih (hw.next c h10 (Int.not_lt.mp hover)) (fun x hx => hin x (List.mem_cons_of_mem _ hx)) (ns := if c = 32 ∨ isChinese c = true then ns + 1 else ns)
        rw [List.append_assoc] at key
        exact key

/-! ### The cells -/

/-- A change of the word spacing only. -/
def Spaced (f g : Fpdf) : Prop :=
  g = f ∨ ∃ ws : Rat, ∃ s : Bytes, g = ({ f with t.ws := ws } : Fpdf).out s ∧ (s = B "0 Tw" ∨ s = sprintf "%.3f Tw" [.f (ws * f.k)])

theorem endWs_spaced (f : Fpdf) : Spaced f f.endWs := by
  unfold Fpdf.endWs
  split
  · exact .inr ⟨0, B "0 Tw", rfl, .inl rfl⟩
  · exact .inl rfl

/-- Cells drawn one after the other with `CellFormat`, each below the last one (`ln` is 2); a cell is its text, border and alignment. -/
inductive CellRun (E : Ext) (cb : Cb) (w h : Rat) (fill : Bool) : Fpdf → List (Bytes × Bytes × Bytes) → Fpdf → Prop
  | nil (f : Fpdf) : CellRun E cb w h fill f [] f
  | cons {f f1 g : Fpdf} {t b a : Bytes} {r : List (Bytes × Bytes × Bytes)} : Spaced f f1 → CellRun E cb w h fill (f1.exec E cb (.cell w h t b 2 a fill 0 [])) r g →
      CellRun E cb w h fill f ((t, b, a) :: r) g

/-- The text of characters. -/
def mcText (utf8 : Bool) (l : List Nat) : Bytes := if utf8 then runesToBytes l else l.map UInt8.ofNat

theorem sub_eq (P : Fpdf.McParams) (a b : Nat) : P.sub a b = mcText P.utf8 (slice P.s a b) := rfl

/-- The cells for lines: the first one has the border `b0`, the others `b1`; the last one has also `bl`. -/
inductive McCells (utf8 : Bool) (align b1 bl : Bytes) : Bytes → List (List Nat) → List (Bytes × Bytes × Bytes) → Prop
  | last {b0 a : Bytes} {l : List Nat} : (a = align ∨ utf8 = true ∧ align = B "J") → McCells utf8 align b1 bl b0 [l] [(mcText utf8 l, b0 ++ bl, a)]
  | cons {b0 a : Bytes} {l : List Nat} {ls : List (List Nat)} {cs : List (Bytes × Bytes × Bytes)} : (a = align ∨ utf8 = true ∧ align = B "J") → McCells utf8 align b1 bl b1 ls cs →
      McCells utf8 align b1 bl b0 (l :: ls) ((mcText utf8 l, b0, a) :: cs)

theorem Ends.le {isSep : Nat → Bool} {w : Nat → Int} {wmax : Int} {t : List Nat} {n m : Nat} (h : Ends isSep w wmax t n m) : n ≤ m ∧ m ≤ t.length ∧ 0 < m := by
  cases h with
  | newline => simp
  | space => simp
  | @cut l c r h1 h2 h3 h4 => simp; exact List.length_pos_iff.mpr h4
  | single => simp

/-- The loop prints the wrapped lines. -/
theorem mcLoop_cells (E : Ext) (cb : Cb) (P : Fpdf.McParams) (b1 : Bytes) (hin : ∀ c ∈ P.s, c ≠ 10 → c < P.cw.length) : ∀ (fuel : Nat) (f : Fpdf) (j nl : Nat) (b : Bytes),
    P.s.length - j < fuel → j ≤ P.s.length → (if P.border.length > 0 ∧ nl + 1 = 2 then P.b2 else b) = b1 → (nl ≠ 1 → b = b1) →  1 ≤ nl →
    ∃ lines cells g, Wrapped mcSep (mcWidth P.cw P.miss) P.wmax true (P.s.drop j) lines ∧
      McCells P.utf8 P.align b1 (if P.border.length > 0 ∧ P.border.contains 0x42 = true then B "B" else []) b lines cells ∧
      CellRun E cb P.w P.h P.fill f cells g ∧ Fpdf.mcLoop E cb P fuel f j nl b = { g with p.x := g.p.lMargin } := by
  intro fuel
  induction fuel with
  | zero => intro f j nl b h; omega
  | succ fuel ih =>
    intro f j nl b hf hj hb hnl hn1
    have hok := scanMc_ok (cw := P.cw) (miss := P.miss) (wmax := P.wmax) (j := j) (P.s.drop j) (ns := 0) (McWalked.start _ _ j)
      (fun c hc => hin c (List.mem_of_mem_drop hc))
    rw [List.nil_append] at hok
    have hb2 : (if P.border.length > 0 ∧ nl + 1 + 1 = 2 then P.b2 else b1) = b1 := if_neg (by omega)
    have next : ∀ (f1 : Fpdf) (a : Bytes) (n m : Nat), Spaced f f1 → (a = P.align ∨ P.utf8 = true ∧ P.align = B "J") → Ends mcSep (mcWidth P.cw P.miss) P.wmax (P.s.drop j) n m →
        ∃ lines cells g, Wrapped mcSep (mcWidth P.cw P.miss) P.wmax true (P.s.drop j) lines ∧
          McCells P.utf8 P.align b1 (if P.border.length > 0 ∧ P.border.contains 0x42 = true then B "B" else []) b lines cells ∧
          CellRun E cb P.w P.h P.fill f cells g ∧ Fpdf.mcLoop E cb P fuel (f1.cellFormat E cb P.w P.h (P.sub j (j + n)) b 2 a P.fill 0 []) (j + m) (nl + 1) b1 = { g with p.x := g.p.lMargin } := by
      intro f1 a n m hs ha he
      obtain ⟨l1, l2, l3⟩ := he.le
      rw [List.length_drop] at l2
      obtain ⟨lines, cells, g, r1, r2, r3, r4⟩ := ih (f1.cellFormat E cb P.w P.h (P.sub j (j + n)) b 2 a P.fill 0 []) (j + m) (nl + 1) b1 (by omega) (by omega) hb2 (fun _ => rfl) (by omega)
      rw [← List.drop_drop] at r1
      have e1 : slice P.s j (j + n) = (P.s.drop j).take n := by unfold slice; congr 1; omega
      refine ⟨_, _, g, he.wrapped r1, .cons ha r2, ?_, r4⟩
      rw [← e1, ← sub_eq]
      exact .cons hs r3
    unfold Fpdf.mcLoop
    dsimp only
    rw [hb]
    cases hsc : scanMc P.cw P.miss P.wmax j (P.s.drop j) j none 0 0 with
    | newline i =>
      rw [hsc] at hok
      obtain ⟨n, rfl, he⟩ := hok
      dsimp only
      refine next f.endWs _ n (n + 1) (endWs_spaced f) ?_ he
      split
      · next h => exact .inr h
      · exact .inl rfl
    | cut i =>
      rw [hsc] at hok
      obtain ⟨n, -, rfl, he⟩ := hok
      exact next f.endWs _ n n (endWs_spaced f) (.inl rfl) he
    | atSep p ls ns =>
      rw [hsc] at hok
      obtain ⟨n, rfl, he⟩ := hok
      dsimp only
      refine next _ P.align n (n + 1) ?_ (.inl rfl) he
      split
      · exact .inr ⟨_, _, rfl, .inr rfl⟩
      · exact .inl rfl
    | eof =>
      rw [hsc] at hok
      dsimp only
      refine ⟨[P.s.drop j], _, _, .last (.inl rfl) hok.1 hok.2, .last (a := (if P.utf8 = true ∧ P.align = B "J" then if f.endWs.t.isRTL = true then B "R" else [] else P.align)) ?_, .cons (endWs_spaced f) (.nil _), ?_⟩
      · split
        · next h => exact .inr h
        · exact .inl rfl
      · have e1 : slice P.s j P.s.length = P.s.drop j := by unfold slice; rw [List.take_of_length_le (by simp)]
        rw [sub_eq, e1]
        have e2 : (if P.border.length > 0 ∧ P.border.contains 0x42 = true then b ++ B "B" else b) = b ++ (if P.border.length > 0 ∧ P.border.contains 0x42 = true then B "B" else []) := by
          split <;> simp
        rw [e2]
        rfl
    | badChar => rw [hsc] at hok; exact hok.elim

/-! ### Characters outside the width table -/

/-- Where the next line starts. -/
def mcNext (len : Nat) : McEnd → Nat
  | .newline i => i + 1
  | .cut i => i
  | .atSep p _ _ => p + 1
  | .eof => len
  | .badChar => 0

theorem scanMc_range {cw : List Int} {miss wmax : Int} {j : Nat} (cs : List Nat) : ∀ {i : Nat} {sep : Option (Nat × Int)} {l : Int} {ns : Nat}, (∀ p ls, sep = some (p, ls) → p ≤ i) →
    ∀ c ∈ cs.take (mcNext (i + cs.length) (scanMc cw miss wmax j cs i sep l ns) - i), c ≠ 10 → c < cw.length := by
  induction cs with
  | nil => intro i sep l ns _ c hc; simp at hc
  | cons d cs ih =>
    intro i sep l ns hsep c hc hne
    unfold scanMc at hc
    have one : ∀ n, n ≤ 1 → d < cw.length → c ∈ (d :: cs).take n → c < cw.length := by
      intro n hn hd hm
      have : n = 0 ∨ n = 1 := by omega
      rcases this with rfl | rfl
      · simp at hm
      · simp at hm; rw [hm]; exact hd
    by_cases h10 : d = 10
    · rw [if_pos h10] at hc
      simp only [mcNext] at hc
      rw [show i + 1 - i = 1 by omega] at hc
      simp at hc
      exact absurd (hc.trans h10) hne
    · rw [if_neg h10] at hc
      dsimp only at hc
      cases hg : cw[d]? with
      | none => rw [hg] at hc; simp [mcNext] at hc
      | some wc =>
        have hd : d < cw.length := by
          rcases Nat.lt_or_ge d cw.length with h | h
          · exact h
          · rw [List.getElem?_eq_none h] at hg; cases hg
        rw [hg] at hc
        dsimp only at hc
        have hsep' : ∀ p ls, (if d = 32 ∨ isChinese d = true then some (i, l) else sep) = some (p, ls) → p ≤ i := by
          intro p ls hp
          split at hp
          · cases hp; exact Nat.le_refl _
          · exact hsep p ls hp
        generalize (if d = 32 ∨ isChinese d = true then some (i, l) else sep) = sep' at hc hsep'
        generalize (if wc = 0 then l + miss else if wc ≠ 65535 then l + wc else l) = l' at hc
        generalize (if d = 32 ∨ isChinese d = true then ns + 1 else ns) = ns' at hc
        by_cases hov : l' > wmax
        · rw [if_pos hov] at hc
          cases hs : sep' with
          | none =>
            rw [hs] at hc
            dsimp only [mcNext] at hc
            refine one _ ?_ hd hc
            by_cases hij : i = j
            · rw [if_pos hij]; omega
            · rw [if_neg hij]; omega
          | some q =>
            obtain ⟨p, ls⟩ := q
            rw [hs] at hc
            dsimp only [mcNext] at hc
            have := hsep' p ls hs
            exact one _ (by omega) hd hc
        · rw [if_neg hov] at hc
          generalize hn : mcNext (i + (d :: cs).length) (scanMc cw miss wmax j cs (i + 1) sep' l' ns') - i = n at hc
          have key := ih (i := i + 1) (sep := sep') (l := l') (ns := ns') (fun p ls h => Nat.le_succ_of_le (hsep' p ls h)) c
          cases n with
          | zero => simp at hc
          | succ n =>
            rw [List.take_succ_cons, List.mem_cons] at hc
            rcases hc with rfl | hc
            · exact hd
            · refine key ?_ hne
              have e : i + 1 + cs.length = i + (d :: cs).length := by simp; omega
              rw [e]
              have e2 : mcNext (i + (d :: cs).length) (scanMc cw miss wmax j cs (i + 1) sep' l' ns') - (i + 1) = n := by
                have := hn; omega
              rw [e2]
              exact hc

/-- A line always takes something from the text. -/
theorem scanMc_next {cw : List Int} {miss wmax : Int} {j : Nat} (cs : List Nat) : ∀ {i : Nat} {sep : Option (Nat × Int)} {l : Int} {ns : Nat}, j ≤ i → (∀ p ls, sep = some (p, ls) → j ≤ p) →
    scanMc cw miss wmax j cs i sep l ns = .eof ∨ scanMc cw miss wmax j cs i sep l ns = .badChar ∨ ∀ len, j < mcNext len (scanMc cw miss wmax j cs i sep l ns) := by
  induction cs with
  | nil => intros; exact .inl rfl
  | cons d cs ih =>
    intro i sep l ns hij hsep
    unfold scanMc
    by_cases h10 : d = 10
    · rw [if_pos h10]
      exact .inr (.inr fun _ => by simp only [mcNext]; omega)
    · rw [if_neg h10]
      dsimp only
      cases hg : cw[d]? with
      | none => exact .inr (.inl rfl)
      | some wc =>
        dsimp only
        have hsep' : ∀ p ls, (if d = 32 ∨ isChinese d = true then some (i, l) else sep) = some (p, ls) → j ≤ p := by
          intro p ls hp
          split at hp
          · cases hp; exact hij
          · exact hsep p ls hp
        generalize (if d = 32 ∨ isChinese d = true then some (i, l) else sep) = sep' at hsep' ⊢
        generalize (if wc = 0 then l + miss else if wc ≠ 65535 then l + wc else l) = l'
        by_cases hov : l' > wmax
        · rw [if_pos hov]
          refine .inr (.inr fun _ => ?_)
          cases hs : sep' with
          | none =>
            dsimp only [mcNext]
            by_cases h : i = j
            · rw [if_pos h]; omega
            · rw [if_neg h]; omega
          | some q =>
            obtain ⟨p, ls⟩ := q
            have := hsep' p ls hs
            dsimp only [mcNext]; omega
        · rw [if_neg hov]
          exact ih (Nat.le_succ_of_le hij) hsep'

/-- If no error is reported, all characters are in the width table. -/
theorem mcLoop_range (E : Ext) (cb : Cb) (P : Fpdf.McParams) : ∀ (fuel : Nat) (f : Fpdf) (j nl : Nat) (b : Bytes), P.s.length - j < fuel →
    (Fpdf.mcLoop E cb P fuel f j nl b).err = none → ∀ c ∈ P.s.drop j, c ≠ 10 → c < P.cw.length := by
  intro fuel
  induction fuel with
  | zero => intro f j nl b h; omega
  | succ fuel ih =>
    intro f j nl b hf he c hc hne
    have h1 := scanMc_range (cw := P.cw) (miss := P.miss) (wmax := P.wmax) (j := j) (P.s.drop j) (i := j) (sep := none) (l := 0) (ns := 0) (by simp) c
    have h2 := scanMc_next (cw := P.cw) (miss := P.miss) (wmax := P.wmax) (j := j) (P.s.drop j) (i := j) (sep := none) (l := 0) (ns := 0) (Nat.le_refl _) (by simp)
    unfold Fpdf.mcLoop at he
    dsimp only at he
    generalize scanMc P.cw P.miss P.wmax j (P.s.drop j) j none 0 0 = e at h1 h2 he
    have rest : ∀ n, j < n → (c ∈ (P.s.drop j).take (n - j) → c < P.cw.length) → (c ∈ P.s.drop n → c < P.cw.length) → c < P.cw.length := by
      intro n hn ha hb
      rw [← List.take_append_drop (n - j) (P.s.drop j), List.mem_append, List.drop_drop] at hc
      rcases hc with hc | hc
      · exact ha hc
      · rw [show j + (n - j) = n by omega] at hc; exact hb hc
    cases e with
    | newline i =>
      have hn : j < i + 1 := (h2.resolve_left (by simp)).resolve_left (by simp) 0
      dsimp only at he
      by_cases hj : j < P.s.length
      · exact rest _ hn (fun h => h1 h hne) (fun h => ih _ _ _ _ (by omega) he c h hne)
      · rw [List.drop_eq_nil_of_le (by omega)] at hc; simp at hc
    | cut i =>
      have hn : j < i := (h2.resolve_left (by simp)).resolve_left (by simp) 0
      dsimp only at he
      by_cases hj : j < P.s.length
      · exact rest _ hn (fun h => h1 h hne) (fun h => ih _ _ _ _ (by omega) he c h hne)
      · rw [List.drop_eq_nil_of_le (by omega)] at hc; simp at hc
    | atSep p ls ns =>
      have hn : j < p + 1 := (h2.resolve_left (by simp)).resolve_left (by simp) 0
      dsimp only at he
      by_cases hj : j < P.s.length
      · exact rest _ hn (fun h => h1 h hne) (fun h => ih _ _ _ _ (by omega) he c h hne)
      · rw [List.drop_eq_nil_of_le (by omega)] at hc; simp at hc
    | eof =>
      refine h1 ?_ hne
      simp only [mcNext]
      rw [List.take_of_length_le (by omega)]
      exact hc
    | badChar => dsimp only at he; simp [Fpdf.assignErr] at he

end Verif.Proof
