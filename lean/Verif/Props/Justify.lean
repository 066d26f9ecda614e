import Verif.Props.MultiCell
import Verif.Props.Text
/-
C67: justified lines fill the cell to within one em.
-/
namespace Verif.Props
open Verif Verif.Model Verif.Spec Verif.Proof

/-! ### Specification -/

/-- Why a line ends. -/
inductive Ending where
  /-- at a newline of the text -/
  | newline
  /-- at a blank, because the next word does not fit -/
  | blank
  /-- within a word that does not fit into one line -/
  | cut
  /-- with the text -/
  | stop
  deriving DecidableEq

/-- The character that is dropped behind a line. -/
def Ending.dropped : Ending → List Nat
  | .newline => [10]
  | .blank => [32]
  | .cut => []
  | .stop => []

/-- Before a line that is not to be filled: the word spacing is not positive; one left over from the line before is switched off. -/
def Unspaced (f f1 : Fpdf) : Prop := (f.t.ws ≤ 0 ∧ f1 = f) ∨ (0 < f.t.ws ∧ f1 = ({ f with t.ws := 0 } : Fpdf).out (B "0 Tw"))

/-- Before a line that is to be filled: the word spacing is set and written. It is zero if the line has no blanks. Otherwise the blanks of the line together become wider by a whole number of ems (font sizes): as
many as there is room for. Widths are in thousandths of an em. -/
def Spread (w : Nat → Int) (wmax : Int) (line : List Nat) (f f1 : Fpdf) : Prop :=
  ∃ ws : Rat, f1 = ({ f with t.ws := ws } : Fpdf).out (sprintf "%.3f Tw" [.f (ws * f.k)]) ∧ (line.count 32 = 0 → ws = 0) ∧
    (0 < line.count 32 → ∃ ems : Nat, ws * (line.count 32 : Rat) = ems * f.getFontSize.2 ∧ width w line + 1000 * ems ≤ wmax ∧ wmax < width w line + 1000 * ems + 1000)

/-- Lines printed one below the other by `CellFormat` with the alignment "J": those that end at a blank are spread. -/
inductive JustRun (E : Ext) (cb : Cb) (w h : Rat) (fill : Bool) (cw : Nat → Int) (wmax : Int) : Fpdf → List (List Nat × Ending) → Fpdf → Prop
  | nil (f : Fpdf) : JustRun E cb w h fill cw wmax f [] f
  | cons {f f1 g : Fpdf} {line : List Nat} {e : Ending} {b : Bytes} {r : List (List Nat × Ending)} : (e = .blank → Spread cw wmax line f f1) → (e ≠ .blank → Unspaced f f1) →
      JustRun E cb w h fill cw wmax (f1.exec E cb (.cell w h (line.map UInt8.ofNat) b 2 (B "J") fill 0 [])) r g → JustRun E cb w h fill cw wmax f ((line, e) :: r) g

/-! ### The walk over one line -/

/-- What `scanMc` has counted. -/
structure Counted (w : Nat → Int) (j : Nat) (pre : List Nat) (i : Nat) (sep : Option (Nat × Int)) (l : Int) (ns : Nat) : Prop where
  pos : i = j + pre.length
  sum : l = width w pre
  cnt : ns = pre.countP mcSep
  seps : ∀ p ls, sep = some (p, ls) → ∃ a c b, pre = a ++ c :: b ∧ p = j + a.length ∧ mcSep c = true ∧ ls = width w a ∧ b.countP mcSep = 0

theorem Counted.next {w : Nat → Int} {j : Nat} {pre : List Nat} {i : Nat} {sep : Option (Nat × Int)} {l : Int} {ns : Nat} (hw : Counted w j pre i sep l ns) (c : Nat) :
    Counted w j (pre ++ [c]) (i + 1) (if c = 32 ∨ isChinese c = true then some (i, l) else sep) (l + w c) (if c = 32 ∨ isChinese c = true then ns + 1 else ns) := by
  refine ⟨?_, ?_, ?_, ?_⟩
  · rw [hw.pos]; simp; omega
  · rw [hw.sum, width_append]; simp [width]
  · rw [List.countP_append, ← hw.cnt]
    simp only [mcSep_iff, List.countP_cons, List.countP_nil]
    split <;> simp
  · intro p ls hp
    split at hp
    · next hs => cases hp; exact ⟨pre, c, [], rfl, hw.pos, (mcSep_iff c).mp hs, hw.sum, rfl⟩
    · next hs =>
      rw [mcSep_iff] at hs
      obtain ⟨a, d, b, e1, e2, e3, e4, e5⟩ := hw.seps p ls hp
      refine ⟨a, d, b ++ [c], by rw [e1]; simp, e2, e3, e4, ?_⟩
      rw [List.countP_append, e5]
      simp [hs]

/-- What ends a line and how much it holds. -/
def CountedEnd (w : Nat → Int) (j : Nat) (t : List Nat) : McEnd → Prop
  | .newline i => ∃ a b, t = a ++ 10 :: b ∧ i = j + a.length
  | .atSep p ls ns => ∃ a c b, t = a ++ c :: b ∧ p = j + a.length ∧ mcSep c = true ∧ ls = width w a ∧ ns = a.countP mcSep + 1
  | _ => True

theorem scanMc_counted {cw : List Int} {miss wmax : Int} {j : Nat} (cs : List Nat) : ∀ {pre : List Nat} {i : Nat} {sep : Option (Nat × Int)} {l : Int} {ns : Nat},
    Counted (mcWidth cw miss) j pre i sep l ns → CountedEnd (mcWidth cw miss) j (pre ++ cs) (scanMc cw miss wmax j cs i sep l ns) := by
  induction cs with
  | nil => intro pre i sep l ns hw; simp [scanMc, CountedEnd]
  | cons c cs ih =>
    intro pre i sep l ns hw
    unfold scanMc
    by_cases h10 : c = 10
    · rw [if_pos h10, h10]
      exact ⟨pre, cs, rfl, hw.pos⟩
    · rw [if_neg h10]
      dsimp only
      cases hg : cw[c]? with
      | none => trivial
      | some wc =>
        dsimp only
        have hl : (if wc = 0 then l + miss else if wc ≠ 65535 then l + wc else l) = l + mcWidth cw miss c := by
          unfold mcWidth
          rw [hg]
          dsimp only
          split
          · rfl
          · split
            · rfl
            · omega
        rw [hl]
        have hn := hw.next c
        split
        · cases hsep : (if c = 32 ∨ isChinese c = true then some (i, l) else sep) with
          | none => trivial
          | some q =>
            obtain ⟨p, ls⟩ := q
            obtain ⟨a, d, b, e1, e2, e3, e4, e5⟩ := hn.seps p ls hsep
            refine ⟨a, d, b ++ cs, ?_, e2, e3, e4, ?_⟩
            · have : pre ++ c :: cs = (pre ++ [c]) ++ cs := by simp
              rw [this, e1]; simp
            · rw [hn.cnt, e1, List.countP_append, List.countP_cons, e5]
              simp [e3]
        · have key := ih hn
          rw [List.append_assoc] at key
          exact key

theorem Ends.fits {isSep : Nat → Bool} {w : Nat → Int} {wmax : Int} {t : List Nat} {n m : Nat} (h : Ends isSep w wmax t n m) (hm : m = n + 1) : t.take n = [] ∨ width w (t.take n) ≤ wmax := by
  cases h with
  | newline h1 h2 => simpa using h2
  | space h1 h2 h3 h4 => simpa using h4
  | cut => omega
  | single => omega

theorem mcSep_byte {c : Nat} (h : c < 256) : (mcSep c = true) ↔ c = 32 := by
  unfold mcSep isChinese
  constructor
  · intro hh
    simp only [decide_eq_true_eq] at hh
    rcases hh with hh | hh
    · exact hh
    · omega
  · rintro rfl; decide

theorem countP_blanks {l : List Nat} (h : ∀ c ∈ l, c < 256) : l.countP mcSep = l.count 32 := by
  rw [List.count]
  apply List.countP_congr
  intro c hc
  rw [mcSep_byte (h c hc)]
  simp

theorem endWs_unspaced (f : Fpdf) : Unspaced f f.endWs := by
  unfold Fpdf.endWs
  split
  · next h => exact .inr ⟨h, rfl⟩
  · next h => exact .inl ⟨Rat.not_lt.mp h, rfl⟩

/-- The word spacing chosen fills the line. -/
theorem spread_ok {cw : Nat → Int} {wmax : Int} {line : List Nat} {f : Fpdf} {ls : Int} {ns : Nat} (hls : ls = width cw line) (hns : ns = line.count 32 + 1) (hfit : line = [] ∨ width cw line ≤ wmax) :
    let ws : Rat := if ns > 1 then (((wmax - ls).tdiv 1000 : Int) : Rat) * f.t.fontSize / ((ns - 1 : Nat) : Rat) else 0
    Spread cw wmax line f (({ f with t.ws := ws } : Fpdf).outf "%.3f Tw" [.f (ws * f.k)]) := by
  intro ws
  refine ⟨ws, rfl, ?_, ?_⟩
  · intro h0
    show (if ns > 1 then _ else (0 : Rat)) = 0
    rw [if_neg (by omega)]
  · intro hpos
    have hne : line ≠ [] := by rintro rfl; simp at hpos
    have hw := hfit.resolve_left hne
    rw [← hls] at hw
    have htd : (wmax - ls).tdiv 1000 = (wmax - ls) / 1000 := Int.tdiv_eq_ediv_of_nonneg (by omega)
    have hnn : 0 ≤ (wmax - ls) / 1000 := Int.ediv_nonneg (by omega) (by omega)
    refine ⟨((wmax - ls) / 1000).toNat, ?_, ?_, ?_⟩
    · have e1 : ws = (((wmax - ls) / 1000 : Int) : Rat) * f.t.fontSize / ((line.count 32 : Nat) : Rat) := by
        show (if ns > 1 then _ else (0 : Rat)) = _
        rw [if_pos (by omega), htd]
        have : ns - 1 = line.count 32 := by omega
        rw [this]
      rw [e1]
      have hc : ((line.count 32 : Nat) : Rat) ≠ 0 := by
        intro h
        have : line.count 32 = 0 := by exact_mod_cast h
        omega
      rw [Rat.div_mul_cancel hc]
      have e2 : (((((wmax - ls) / 1000).toNat : Nat) : Int) : Rat) = (((wmax - ls) / 1000 : Int) : Rat) := by rw [Int.toNat_of_nonneg hnn]
      rw [← e2]
      rfl
    · rw [Int.toNat_of_nonneg hnn, ← hls]; omega
    · rw [Int.toNat_of_nonneg hnn, ← hls]; omega

/-- The loop prints lines as described. -/
theorem mcLoop_just (E : Ext) (cb : Cb) (P : Fpdf.McParams) (hu : P.utf8 = false) (ha : P.align = B "J") (hb8 : ∀ c ∈ P.s, c < 256) (hin : ∀ c ∈ P.s, c ≠ 10 → c < P.cw.length) :
    ∀ (fuel : Nat) (f : Fpdf) (j nl : Nat) (b : Bytes), P.s.length - j < fuel → j ≤ P.s.length →
    ∃ lines last g, JustRun E cb P.w P.h P.fill (mcWidth P.cw P.miss) P.wmax f (lines ++ [(last, .stop)]) g ∧
      P.s.drop j = (lines.map (fun l => l.1 ++ l.2.dropped)).flatten ++ last ∧ (∀ l ∈ lines, l.2 ≠ .stop) ∧
      Wrapped mcSep (mcWidth P.cw P.miss) P.wmax true (P.s.drop j) (lines.map (·.1) ++ [last]) ∧
      Fpdf.mcLoop E cb P fuel f j nl b = { g with p.x := g.p.lMargin } := by
  intro fuel
  induction fuel with
  | zero => intro f j nl b h; omega
  | succ fuel ih =>
    intro f j nl b hf hj
    have hok := scanMc_ok (cw := P.cw) (miss := P.miss) (wmax := P.wmax) (j := j) (P.s.drop j) (ns := 0) (McWalked.start _ _ j)
      (fun c hc => hin c (List.mem_of_mem_drop hc))
    have hco := scanMc_counted (cw := P.cw) (miss := P.miss) (wmax := P.wmax) (j := j) (P.s.drop j) (pre := []) (i := j) (sep := none) (l := 0) (ns := 0)
      ⟨by simp, rfl, rfl, by simp⟩
    rw [List.nil_append] at hok hco
    have next : ∀ (f1 : Fpdf) (e : Ending) (b b' : Bytes) (n m : Nat), e ≠ .stop → (e = .blank → Spread (mcWidth P.cw P.miss) P.wmax ((P.s.drop j).take n) f f1) → (e ≠ .blank → Unspaced f f1) →
        Ends mcSep (mcWidth P.cw P.miss) P.wmax (P.s.drop j) n m → (P.s.drop j) = (P.s.drop j).take n ++ (e.dropped ++ (P.s.drop j).drop m) →
        ∃ lines last g, JustRun E cb P.w P.h P.fill (mcWidth P.cw P.miss) P.wmax f (lines ++ [(last, .stop)]) g ∧
          P.s.drop j = (lines.map (fun l => l.1 ++ l.2.dropped)).flatten ++ last ∧ (∀ l ∈ lines, l.2 ≠ .stop) ∧
          Wrapped mcSep (mcWidth P.cw P.miss) P.wmax true (P.s.drop j) (lines.map (·.1) ++ [last]) ∧
          Fpdf.mcLoop E cb P fuel (f1.cellFormat E cb P.w P.h (P.sub j (j + n)) b 2 P.align P.fill 0 []) (j + m) (nl + 1) b' = { g with p.x := g.p.lMargin } := by
      intro f1 e b b' n m hst h1 h2 he hd
      obtain ⟨l1, l2, l3⟩ := he.le
      rw [List.length_drop] at l2
      obtain ⟨lines, last, g, r1, r2, r3, r4, r5⟩ := ih (f1.cellFormat E cb P.w P.h (P.sub j (j + n)) b 2 P.align P.fill 0 []) (j + m) (nl + 1) b' (by omega) (by omega)
      rw [← List.drop_drop] at r2 r4
      have e1 : slice P.s j (j + n) = (P.s.drop j).take n := by unfold slice; congr 1; omega
      refine ⟨((P.s.drop j).take n, e) :: lines, last, g, ?_, ?_, ?_, he.wrapped r4, r5⟩
      · refine .cons (b := b) h1 h2 ?_
        have e2 : P.sub j (j + n) = ((P.s.drop j).take n).map UInt8.ofNat := by rw [sub_eq, e1, hu]; rfl
        rw [e2, ha] at r1
        exact r1
      · rw [List.map_cons, List.flatten_cons, List.append_assoc, ← r2, List.append_assoc]
        exact hd
      · intro l hl
        rcases List.mem_cons.mp hl with rfl | hl
        · exact hst
        · exact r3 l hl
    unfold Fpdf.mcLoop
    dsimp only
    cases hsc : scanMc P.cw P.miss P.wmax j (P.s.drop j) j none 0 0 with
    | newline i =>
      rw [hsc] at hok hco
      obtain ⟨n, rfl, he⟩ := hok
      obtain ⟨a, r, e1, e2⟩ := hco
      have hn : n = a.length := by omega
      dsimp only
      rw [if_neg (by simp [hu])]
      refine next f.endWs .newline _ _ n (n + 1) (by simp) (by simp) (fun _ => endWs_unspaced f) he ?_
      rw [e1, hn]
      simp [Ending.dropped]
    | cut i =>
      rw [hsc] at hok
      obtain ⟨n, -, rfl, he⟩ := hok
      exact next f.endWs .cut _ _ n n (by simp) (by simp) (fun _ => endWs_unspaced f) he (by simp [Ending.dropped])
    | atSep p ls ns =>
      rw [hsc] at hok hco
      obtain ⟨n, rfl, he⟩ := hok
      obtain ⟨a, c, r, e1, e2, e3, e4, e5⟩ := hco
      have hn : n = a.length := by omega
      have hta : (P.s.drop j).take n = a := by rw [e1, hn]; simp
      have hmem : ∀ x ∈ P.s.drop j, x < 256 := fun x hx => hb8 x (List.mem_of_mem_drop hx)
      have hc32 : c = 32 := (mcSep_byte (hmem c (by rw [e1]; simp))).mp e3
      have hcnt : ns = a.count 32 + 1 := by rw [e5, countP_blanks (fun x hx => hmem x (by rw [e1]; simp [hx]))]
      dsimp only
      rw [if_pos ha]
      refine next _ .blank _ _ n (n + 1) (by simp) (fun _ => ?_) (by simp) he ?_
      · rw [hta]
        have hfit := Ends.fits he rfl
        rw [hta] at hfit
        exact spread_ok e4 hcnt hfit
      · rw [e1, hn, hc32]
        simp [Ending.dropped]
    | eof =>
      rw [hsc] at hok
      dsimp only
      refine ⟨[], P.s.drop j, _, .cons (b := if P.border.length > 0 ∧ P.border.contains 0x42 = true then b ++ B "B" else b) (by simp) (fun _ => endWs_unspaced f) (.nil _), by simp, by simp, .last (.inl rfl) hok.1 hok.2, ?_⟩
      have e1 : slice P.s j P.s.length = P.s.drop j := by unfold slice; rw [List.take_of_length_le (by simp)]
      rw [sub_eq, e1, if_neg (c := P.utf8 = true ∧ P.align = B "J") (by simp [hu]), hu, ha]
      rfl
    | badChar => rw [hsc] at hok; exact hok.elim

theorem mcChars_byte (txt : Bytes) : ∀ c ∈ Fpdf.mcChars false txt, c < 256 := by
  intro c hc
  obtain ⟨n, h, -⟩ := mcChars_spec false txt
  have : c ∈ chars false (txt.filter (· ≠ 13)) := by rw [h]; exact List.mem_append_left _ hc
  unfold chars at this
  simp only [Bool.false_eq_true, if_false, List.mem_map] at this
  obtain ⟨b, -, rfl⟩ := this
  exact b.toNat_lt

theorem wrapped_congr {p q : Nat → Bool} {w : Nat → Int} {wmax : Int} {keep : Bool} {s : List Nat} {ls : List (List Nat)} (h : ∀ c ∈ s, p c = q c) (hw : Wrapped p w wmax keep s ls) : Wrapped q w wmax keep s ls := by
  induction hw with
  | done hk => exact .done hk
  | last h1 h2 h3 => exact .last h1 h2 h3
  | newline h1 h2 _ ih => exact .newline h1 h2 (ih fun c hc => h c (by simp [hc]))
  | space h1 h2 h3 h4 h5 h6 _ ih =>
    refine .space (by rw [← h _ (by simp)]; exact h1) h2 h3 h4 (fun x hx => by rw [← h x (by simp [hx])]; exact h5 x hx) h6 (ih fun c hc => h c ?_)
    rcases List.mem_append.mp hc with hc | hc <;> simp [hc]
  | cut h1 h2 h3 h4 h5 h6 _ ih =>
    refine .cut (fun x hx => by rw [← h x (by simp [hx])]; exact h1 x hx) (by rw [← h _ (by simp)]; exact h2) h3 h4 h5 h6 (ih fun c hc => h c ?_)
    rcases List.mem_cons.mp hc with rfl | hc
    · simp
    · simp [hc]
  | single h1 h2 h3 _ ih => exact .single (by rw [← h _ (by simp)]; exact h1) h2 h3 (ih fun c hc => h c (by simp [hc]))

/-- **C67** What `MultiCell` prints with a byte font when the alignment is "J" or left out: the text (less carriage returns and a final newline) is wrapped into lines, which are printed one below the other. Each line that
was broken at a blank and contains blanks is spread: its blanks together are widened by as many whole ems as fit, so that the printed line never sticks out of the room of the cell and falls short of it by less than
one em. All other lines – those that end at a newline, within a word or with the text – are printed without word spacing. -/
theorem C67_spread (E : Ext) (cb : Cb) (f : Fpdf) (w h : Rat) (txt border align : Bytes) (fill : Bool) (hf : f.err = none) (hu : f.t.isUTF8 = false) (ha : align = [] ∨ align = B "J")
    (hok : (f.exec E cb (.multiCell w h txt border align fill)).err = none) :
    ∃ lines last g, JustRun E cb (cellWidth w f.getX f.getPageSize.1 f.getMargins.2.2.1) h fill (mcWidth f.t.currentFont.cw f.t.currentFont.missingWidth)
        (room f (cellWidth w f.getX f.getPageSize.1 f.getMargins.2.2.1)) f (lines ++ [(last, .stop)]) g ∧
      Fpdf.mcChars false txt = (lines.map (fun l => l.1 ++ l.2.dropped)).flatten ++ last ∧ (∀ l ∈ lines, l.2 ≠ .stop) ∧
      Wrapped (· = 32) (mcWidth f.t.currentFont.cw f.t.currentFont.missingWidth) (room f (cellWidth w f.getX f.getPageSize.1 f.getMargins.2.2.1)) true (Fpdf.mcChars false txt) (lines.map (·.1) ++ [last]) ∧
      f.exec E cb (.multiCell w h txt border align fill) = { g with p.x := g.p.lMargin } := by
  revert hok
  show (f.multiCell E cb w h txt border align fill).err = none → _
  intro hok
  have hex : f.exec E cb (.multiCell w h txt border align fill) = f.multiCell E cb w h txt border align fill := rfl
  rw [hex]
  unfold Fpdf.multiCell at hok ⊢
  rw [if_neg (by simp [hf])] at hok ⊢
  dsimp only at hok ⊢
  have hr := mcLoop_range E cb _ _ _ _ _ _ (by dsimp only; omega) hok
  rw [List.drop_zero] at hr
  have hal : (if align = [] then B "J" else align) = B "J" := by rcases ha with rfl | rfl <;> simp
  obtain ⟨lines, last, g, h1, h2, h3, h4, h5⟩ := mcLoop_just E cb
    { w := cellWidth w f.p.x f.p.w f.p.rMargin, h := h, s := Fpdf.mcChars f.t.isUTF8 txt, utf8 := f.t.isUTF8, cw := f.t.currentFont.cw, miss := f.t.currentFont.missingWidth,
      wmax := ceilInt ((cellWidth w f.p.x f.p.w f.p.rMargin - 2 * f.p.cMargin) * 1000 / f.t.fontSize), border := (Fpdf.mcBorders border).1, b2 := (Fpdf.mcBorders border).2.2,
      align := if align = [] then B "J" else align, fill := fill }
    hu hal (by rw [hu]; exact mcChars_byte txt) hr ((Fpdf.mcChars f.t.isUTF8 txt).length + 1) f 0 1 (Fpdf.mcBorders border).2.1 (by dsimp only; omega) (Nat.zero_le _)
  rw [List.drop_zero] at h2 h4
  dsimp only at h2 h4
  rw [hu] at h2 h4
  refine ⟨lines, last, g, h1, h2, h3, ?_, h5⟩
  refine wrapped_congr ?_ h4
  intro c hc
  have := mcSep_byte (mcChars_byte txt c hc)
  by_cases h32 : c = 32
  · simp [h32, this.mpr h32]; decide
  · have : mcSep c = false := by simpa [h32] using this
    simp [h32, this]

/-- **C67** A cell that does not break the page, justified, in a UTF-8 font: its line on the page shows the words of the text with the blanks between them; the blanks are all shifted by the same amount, such that the text with the shifts
takes exactly the width there is room for. -/
theorem C67_utf8 (E : Ext) (cb : Cb) (f : Fpdf) (R : Ready E cb f) (hs : f.state = 2) (hu : f.t.isUTF8 = true) (w h : Rat) (txt border : Bytes) (ln : Int) (fill : Bool) (link : Nat) (ls : Bytes) (hb : ¬ Breaks cb f h)
    (hm : 32 ∈ ordered f txt) (g : Fpdf) (hg : g = f.exec E cb (.cell w h txt border ln (B "J") fill link ls)) (hok : g.err = none) :
    ∃ (line : Bytes) (col frame text : List Instr) (shift : Rat) (words : List Bytes), g.pages = modifyAt f.page (· ++ line) f.pages ∧ instrs line = frame ++ text ∧ (words.intersperse (B " ")).flatten = ordered f txt ∧ (∀ t ∈ words, 32 ∉ t) ∧
      ShowsWords text (textColour f col) (px f (f.getX + f.getCellMargin)) (py f (f.getY + h / 2 + 3 / 10 * f.t.fontSize)) (u16 (B " ") false) (words.map fun t => u16 t false) shift (bars f) ∧
      shift * ((ordered f txt).count 32 : Rat) + f.getStringSymbolWidth (ordered f txt) = room f (cellWidth w f.getX f.getPageSize.1 f.getMargins.2.2.1) := by
  obtain ⟨d, line, col, frame, text, hd, -, -, h1, -, -, h2, -, h3⟩ := C03_cell E cb f R hs w h txt border ln (B "J") fill link ls g hg hok
  obtain rfl := hd hb
  have hne : txt ≠ [] := by
    rintro rfl
    unfold ordered at hm
    split at hm
    · exact absurd hm (by decide)
    · simp at hm
  unfold CellText at h3
  rw [if_neg hne, if_pos ⟨hu, .inr rfl⟩] at h3
  obtain ⟨shift, words, -, w2, w3, w4, w5⟩ := h3
  refine ⟨line, col, frame, text, shift, words, h1, h2, w2, w3, w4, w5 hm⟩

/-! ### Non-vacuity and a limit -/

/-- A justified text of three lines, the first broken at a blank. -/
example : nearEnd.err = none ∧ nearEnd.t.isUTF8 = false ∧ (nearEnd.exec oneFont footed (.multiCell 20 5 (B "AA A A AAAAA\nAAAA A") (B "1") [] false)).err = none := by
  refine ⟨?_, ?_, ?_⟩ <;> decide +kernel

/-- A page with a byte font. -/
def topped : Fpdf := after (Fpdf.new [] (B "mm") (B "A4") {}) [.addPage, .setFont (B "helvetica") [] 12] oneFont

/-- **C67** Exact filling is false: the first line of this text is broken at a blank and has a blank, and there is room for three quarters of an em more (3500 of 4252 thousandths are used), but the word spacing is set to zero. -/
theorem C67_exact_false : ∃ f txt, f = topped ∧ txt = B "AAAAA A AAAAA" ∧ room f 20 = 4252 ∧ width (mcWidth f.t.currentFont.cw f.t.currentFont.missingWidth) ((B "AAAAA A").map UInt8.toNat) = 3500 ∧
    (f.exec oneFont {} (.multiCell 20 5 txt [] (B "J") false)).err = none ∧
    (f.exec oneFont {} (.multiCell 20 5 txt [] (B "J") false)).pages.getD 1 [] =
      f.pages.getD 1 [] ++ B "0.000 Tw\nBT 31.18 802.85 Td (AAAAA A)Tj ET\nBT 31.18 788.68 Td (AAAAA)Tj ET\n" := by
  refine ⟨_, _, rfl, rfl, ?_, ?_, ?_, ?_⟩ <;> decide +kernel

/-- A page with a UTF-8 font. -/
def unicodeTop : Fpdf := after (Fpdf.new [] (B "mm") (B "A4") {}) [.addPage, .addUTF8Font (B "u") [] (B "u.ttf") (some { tp := B "UTF8", name := B "u", cw := List.replicate 256 500 }) false,
  .setFont (B "u") [] 12] oneFont

/-- The hypotheses of `C67_utf8` are met. -/
example : Ready oneFont footed unicodeTop ∧ unicodeTop.state = 2 ∧ unicodeTop.t.isUTF8 = true ∧ ¬ Breaks footed unicodeTop 5 ∧ 32 ∈ ordered unicodeTop (B "A AB A") ∧
    (unicodeTop.exec oneFont footed (.cell 40 5 (B "A AB A") [] 0 (B "J") false 0 [])).err = none := by
  refine ⟨⟨⟨[], B "mm", B "A4", {}, by decide +kernel, noClose_after _ _ _ (by decide)⟩, by decide +kernel, footed_ok, rfl⟩, ?_, ?_, ?_, ?_, ?_⟩ <;> decide +kernel

end Verif.Props
