import Verif.Proof.FontEmits
/-
Showing text: the exact instructions of `Text` and `CellFormat`.
-/
namespace Verif.Proof
open Verif Verif.Model Verif.Spec
section
variable (f : Fpdf)

theorem sprintf_of_render {fmt : String} {as : List Arg} {b : Bytes} (h : render (items (B fmt)) as = some b) : sprintf fmt as = b :=
  sprintfB_of_render _ _ _ h

/-- A filled rectangle. -/
def reInstrs (a b c d : Rat) : List Instr := [([.word (fmtF 2 a), .word (fmtF 2 b), .word (fmtF 2 c), .word (fmtF 2 d)], B "re"), ([], B "f")]

theorem re_frag (a b c d : Rat) : Frag (sprintf "%.2f %.2f %.2f %.2f re f" [.f a, .f b, .f c, .f d]) (reInstrs a b c d) := frag_sprintf rfl rfl

theorem underline_frag (x y : Rat) (t : Bytes) : ∃ a b c d, Frag (f.dounderline x y t) (reInstrs a b c d) := ⟨_, _, _, _, re_frag _ _ _ _⟩
theorem strikeout_frag (x y : Rat) (t : Bytes) : ∃ a b c d, Frag (f.dostrikeout x y t) (reInstrs a b c d) := ⟨_, _, _, _, re_frag _ _ _ _⟩

theorem Frag.ifAppend {s t : Bytes} {is js : List Instr} (hs : Frag s is) (ht : Frag t js) (c : Prop) [Decidable c] :
    Frag (if c then s ++ B " " ++ t else s) (is ++ if c then js else []) := by
  split
  · exact hs.append ht 32 (by decide)
  · simpa using hs

theorem frag_qq : Frag (B "q") [([], B "q")] := by
  have := frag_sprintf (fmt := "q") (args := []) (is := [([], B "q")]) rfl rfl
  rwa [B_sprintf "q" (by decide)] at this

/-- Instructions inside their own graphics state. -/
def inQ (is : List Instr) : List Instr := ([], B "q") :: (is ++ [([], B "Q")])

theorem Frag.wrap {a b : Bytes} {i j : List Instr} (ha : Frag a i) (hb : Frag b j) : Frag (B "q " ++ a ++ B " " ++ b ++ B " Q") (inQ (i ++ j)) := by
  have h := ((frag_qq.append ha 32 (by decide)).append hb 32 (by decide)).append frag_Q 32 (by decide)
  have e : B "q" ++ [32] ++ a ++ [32] ++ b ++ [32] ++ B "Q" = B "q " ++ a ++ B " " ++ b ++ B " Q" := by
    simp [show B "q " = B "q" ++ [32] from rfl, show B " " = [32] from rfl, show B " Q" = [32] ++ B "Q" from rfl]
  rw [e] at h
  simpa [inQ] using h

theorem inQ_neutral {is : List Instr} (h : Loose is) : Neutral (inQ is) := by
  constructor
  · intro s
    unfold inQ
    rw [nestRun_q, nestRun_append, h.nest]
    simp [nestRun, nestStep, show B "Q" ≠ B "q" by decide]
  · intro s
    obtain ⟨A, st⟩ := s
    unfold inQ
    rw [attrRun_q, attrRun_append]
    obtain ⟨A', e⟩ := h.stack A (A :: st)
    rw [e]
    show attrStep (A', A :: st) ([], B "Q") = (A, st)
    rw [attrStep_Q]

omit f in
theorem PlainFrag.loose {is : List Instr} (h : is.all (fun i => plainOp i.2) = true) : Loose is := by
  unfold Loose
  rw [List.all_eq_true] at *
  intro i hi
  have := h i hi
  simp only [plainOp, Bool.and_eq_true] at this
  exact this.1

theorem inQ_resolved {r : Regs} {is : List Instr} (h : ∀ i ∈ is, Resolved r i) : ∀ i ∈ inQ is, Resolved r i := by
  intro i hi
  simp only [inQ, List.mem_cons, List.mem_append, List.not_mem_nil, or_false] at hi
  rcases hi with rfl | hi | rfl
  · intro nm hn; cases hn
  · exact h i hi
  · intro nm hn; cases hn

/-- The instructions showing text `t` at a position. -/
def showInstrs (a b : Rat) (t : Bytes) : List Instr :=
  [([], B "BT"), ([.word (fmtF 2 a), .word (fmtF 2 b)], B "Td"), ([.str t], B "Tj"), ([], B "ET")]

theorem text_frag (a b : Rat) (t : Bytes) : Frag (sprintf "BT %.2f %.2f Td (%s) Tj ET" [.f a, .f b, .s (escape t)]) (showInstrs a b t) := by
  have h := sprintf_frag "BT %.2f %.2f Td (%s) Tj ET" [.f a, .f b, .lit t] (is := showInstrs a b t) rfl (by
      intro a ha; simp only [List.mem_cons, List.not_mem_nil, or_false] at ha; rcases ha with rfl | rfl | rfl <;> trivial)
  exact h

theorem celltext_frag (a b : Rat) (t : Bytes) : Frag (sprintf "BT %.2f %.2f Td (%s)Tj ET" [.f a, .f b, .s (escape t)]) (showInstrs a b t) := by
  have h := sprintf_frag "BT %.2f %.2f Td (%s)Tj ET" [.f a, .f b, .lit t] (is := showInstrs a b t) rfl (by
      intro a ha; simp only [List.mem_cons, List.not_mem_nil, or_false] at ha; rcases ha with rfl | rfl | rfl <;> trivial)
  exact h

theorem celltext_frag' (a b : Rat) (t : Bytes) : Frag (sprintf "BT %.2f %.2f Td (%s)Tj ET" [.f a, .f b, .s (escapeCell t)])
    (showInstrs a b (eolNorm t)) := by
  have h := sprintf_frag "BT %.2f %.2f Td (%s)Tj ET" [.f a, .f b, .cell t] (is := showInstrs a b (eolNorm t)) rfl (by
      intro a ha; simp only [List.mem_cons, List.not_mem_nil, or_false] at ha; rcases ha with rfl | rfl | rfl <;> trivial)
  exact h

/-- The operands of a justified line: strings for the words and the blanks, numbers for the adjustments. -/
def justToks (shift : Rat) : List Bytes → List Tok
  | [] => []
  | [t] => [.str (u16 t false)]
  | t :: r => .str (u16 t false) :: .word (fmtF 3 (-shift)) :: .str (u16 (B " ") false) :: justToks shift r

theorem lex_word_lit (w : Bytes) (hw : w ≠ []) (h : ∀ c ∈ w, isRegular c = true) (s : Bytes) :
    lexFrom .ws (w ++ (0x28 :: escape s ++ [0x29])) = (.ws, [.word w, .str s]) := by
  have h1 := lex_lit s
  rw [lexFrom_append, lexFrom_ws_word w hw h]
  simp only [List.cons_append, lexFrom, lexStep] at h1 ⊢
  have e : startTok 0x28 = (.str 1 [] .norm, []) := by decide
  have e2 : isRegular 0x28 = false := by decide
  simp only [e, e2] at h1 ⊢
  rw [Prod.mk.injEq] at h1
  simp only [List.nil_append] at h1
  simp [h1]

theorem just_lex (shift : Rat) (l : List Bytes) : lexFrom .ws (Fpdf.justPieces shift l) = (.ws, justToks shift l) := by
  have sp : lexFrom .ws [32] = (.ws, []) := by decide
  fun_induction Fpdf.justPieces shift l with
  | case1 => rfl
  | case2 t =>
    have e : B "(" ++ escape (u16 t false) ++ B ") " = (0x28 :: escape (u16 t false) ++ [0x29]) ++ [32] := by
      simp [show B "(" = [0x28] from rfl, show B ") " = [0x29, 32] from rfl]
    rw [e, lexFrom_append, lex_lit, sp]
    rfl
  | case3 t r hr ih =>
    have e : B "(" ++ escape (u16 t false) ++ B ") " ++ fmtF 3 (-shift) ++ B "(" ++ escape (u16 (B " ") false) ++ B ") " ++ Fpdf.justPieces shift r
        = (0x28 :: escape (u16 t false) ++ [0x29]) ++ ([32] ++ ((fmtF 3 (-shift) ++ (0x28 :: escape (u16 (B " ") false) ++ [0x29])) ++
          ([32] ++ Fpdf.justPieces shift r))) := by
      simp [show B "(" = [0x28] from rfl, show B ") " = [0x29, 32] from rfl]
    rw [e, lexFrom_append, lex_lit, lexFrom_append, sp, lexFrom_append, lex_word_lit _ (fmtF_ne_nil 3 _) (fmtF_regular 3 _), lexFrom_append, sp, ih]
    cases r with
    | nil => exact absurd rfl hr
    | cons a r => rfl

theorem just_operands (shift : Rat) (l : List Bytes) (acc rest : List Tok) :
    instrsFrom acc (justToks shift l ++ rest) = instrsFrom (acc ++ justToks shift l) rest := by
  fun_induction justToks shift l generalizing acc with
  | case1 => simp
  | case2 t => simp [instrsFrom]
  | case3 t r hr ih => simp [instrsFrom, fmtF_isNum, ih]

theorem just_names (shift : Rat) (l : List Bytes) : ∀ t ∈ justToks shift l, (match t with | .name w => some w | _ => none : Option Bytes) = none := by
  fun_induction justToks shift l with
  | case1 => simp
  | case2 t => simp
  | case3 t r hr ih => intro x hx; simp only [List.mem_cons] at hx; rcases hx with rfl | rfl | rfl | hx; all_goals first | rfl | exact ih _ hx

/-- The instructions of a justified line. -/
def justInstrs (a b shift : Rat) (l : List Bytes) : List Instr :=
  [([], B "BT"), ([.word (B "0")], B "Tw"), ([.word (fmtF 2 a), .word (fmtF 2 b)], B "Td"),
    (.punct 0x5B :: justToks shift l ++ [.punct 0x5D], B "TJ"), ([], B "ET")]

theorem just_open (a b : Rat) : sprintf "BT 0 Tw %.2f %.2f Td [" [.f a, .f b] = sprintf "BT 0 Tw %.2f %.2f Td" [.f a, .f b] ++ [32] ++ [0x5B] := by
  have e1 : sprintf "BT 0 Tw %.2f %.2f Td [" [.f a, .f b] = B "BT 0 Tw " ++ (fmtF 2 a ++ (B " " ++ (fmtF 2 b ++ B " Td ["))) :=
    sprintf_of_render rfl
  have e2 : sprintf "BT 0 Tw %.2f %.2f Td" [.f a, .f b] = B "BT 0 Tw " ++ (fmtF 2 a ++ (B " " ++ (fmtF 2 b ++ B " Td"))) :=
    sprintf_of_render rfl
  have e3 : B " Td [" = B " Td" ++ [32] ++ [0x5B] := by decide
  rw [e1, e2, e3]
  simp only [List.append_assoc]

theorem wrap_q (a b : Bytes) : sprintf "q %s %s Q" [.s a, .s b] = B "q " ++ (a ++ (B " " ++ (b ++ B " Q"))) := sprintf_of_render rfl

theorem just_frag (a b shift : Rat) (l : List Bytes) :
    Frag (sprintf "BT 0 Tw %.2f %.2f Td [" [.f a, .f b] ++ Fpdf.justPieces shift l ++ B "] TJ ET") (justInstrs a b shift l) := by
  have h1 : Frag (sprintf "BT 0 Tw %.2f %.2f Td" [.f a, .f b]) [([], B "BT"), ([.word (B "0")], B "Tw"),
    ([.word (fmtF 2 a), .word (fmtF 2 b)], B "Td")] := frag_sprintf rfl rfl
  have h2 : Frag ([0x5B] ++ Fpdf.justPieces shift l ++ B "] TJ ET") [(.punct 0x5B :: justToks shift l ++ [.punct 0x5D], B "TJ"), ([], B "ET")] := by
    intro c hc
    have e0 : lexFrom .ws [0x5B] = (.ws, [.punct 0x5B]) := by decide
    have e1 : lexFrom .ws (B "] TJ ") = (.ws, [.punct 0x5D, .word (B "TJ")]) := by decide +kernel
    have e2 := lex_word_end (B "ET") (by decide) (by decide) c hc
    refine ⟨[.punct 0x5B] ++ (justToks shift l ++ ([.punct 0x5D, .word (B "TJ")] ++ [.word (B "ET")])), ?_, ?_⟩
    · have e : [0x5B] ++ Fpdf.justPieces shift l ++ B "] TJ ET" ++ [c] = [0x5B] ++ (Fpdf.justPieces shift l ++ (B "] TJ " ++ (B "ET" ++ [c]))) := by
        simp [show B "] TJ ET" = B "] TJ " ++ B "ET" from rfl]
      rw [e, lexFrom_append, e0, lexFrom_append, just_lex, lexFrom_append, e1, e2]
    · simp only [List.singleton_append, instrsFrom, List.nil_append]
      rw [just_operands]
      have n1 : isNumWord (B "TJ") = false := by decide
      have n2 : isNumWord (B "ET") = false := by decide
      simp [instrsFrom, n1, n2]
  have h := h1.append h2 32 (by decide)
  have e : sprintf "BT 0 Tw %.2f %.2f Td" [.f a, .f b] ++ [32] ++ ([0x5B] ++ Fpdf.justPieces shift l ++ B "] TJ ET")
      = sprintf "BT 0 Tw %.2f %.2f Td [" [.f a, .f b] ++ Fpdf.justPieces shift l ++ B "] TJ ET" := by
    rw [just_open]
    simp only [List.append_assoc]
  rw [e] at h
  exact h

/-- The bytes a string operand holds when `txt` is shown in the current font. -/
def shownText (f : Fpdf) (txt : Bytes) : Bytes := if f.t.isRTL then reverseText txt else txt

/-- A decoration: nothing, or (when `c`) a filled rectangle. -/
def Deco (c : Prop) (l : List Instr) : Prop := (¬ c ∧ l = []) ∨ (c ∧ ∃ w x y z, l = reInstrs w x y z)

theorem Deco.mk {c : Prop} [Decidable c] {w x y z : Rat} : Deco c (if c then reInstrs w x y z else []) := by
  by_cases h : c
  · rw [if_pos h]; exact .inr ⟨h, _, _, _, _, rfl⟩
  · rw [if_neg h]; exact .inl ⟨h, rfl⟩

theorem Deco.plain {c : Prop} {l : List Instr} (h : Deco c l) : l.all (fun i => plainOp i.2) = true ∧ noNames l = true := by
  rcases h with ⟨_, rfl⟩ | ⟨_, w, x, y, z, rfl⟩
  · exact ⟨rfl, rfl⟩
  · exact ⟨rfl, rfl⟩

/-- The document changed only in ways drawing does not look at. -/
structure Still (f g : Fpdf) : Prop where
  quiet : quiet g = quiet f
  rest : rest g = rest f
  err : g.err = f.err
  c : g.c = f.c
  font : g.t.currentFont = f.t.currentFont

theorem Still.refl (f : Fpdf) : Still f f := ⟨rfl, rfl, rfl, rfl, rfl⟩

omit f in
theorem encodeRune_ne_nil (n : Nat) : encodeRune n ≠ [] := by unfold encodeRune; dsimp only; repeat' split
                                                              all_goals simp

omit f in
theorem reverseText_eq_nil (t : Bytes) : reverseText t = [] ↔ t = [] := by
  cases t with
  | nil => simp [reverseText, runes, runesGo, runesToBytes]
  | cons c r =>
    simp only [reverseText, runesToBytes, List.flatMap_eq_nil_iff, List.mem_reverse, runes, runesGo, List.mem_cons, reduceCtorEq, iff_false]
    intro h
    exact encodeRune_ne_nil _ (h _ (.inl rfl))

/-- What `Text` writes: the text, decorations, in the text colour. -/
theorem text_line (x y : Rat) (txt : Bytes) : ∃ g line a b u s, f.text x y txt = g.out line ∧ Still f g ∧
    Deco (f.t.underline = true ∧ txt ≠ []) u ∧ Deco (f.t.strikeout = true ∧ txt ≠ []) s ∧
    (b = (f.p.h - y) * f.k ∧ a = (if f.t.isUTF8 = true ∧ f.t.isRTL = true then x - f.getStringWidth (reverseText txt) else x) * f.k) ∧
    (let body := showInstrs a b (if f.t.isUTF8 then u16 (shownText f txt) false else txt) ++ u ++ s
     ∀ ic, Frag f.c.text.str ic → Frag line (if f.c.colorFlag then inQ (ic ++ body) else body)) := by
  cases hu : f.t.isUTF8 with
  | false =>
    unfold Fpdf.text
    simp only [hu, if_false, Bool.false_eq_true]
    obtain ⟨u1, u2, u3, u4, hul⟩ := underline_frag f x y txt
    obtain ⟨s1, s2, s3, s4, hst⟩ := strikeout_frag f x y txt
    have h := ((text_frag (x * f.k) ((f.p.h - y) * f.k) txt).ifAppend hul (f.t.underline = true ∧ txt ≠ [])).ifAppend hst
      (f.t.strikeout = true ∧ txt ≠ [])
    refine ⟨f, _, x * f.k, (f.p.h - y) * f.k, _, _, rfl, Still.refl f, Deco.mk (w := u1) (x := u2) (y := u3) (z := u4),
      Deco.mk (w := s1) (x := s2) (y := s3) (z := s4), ⟨rfl, by simp⟩, ?_⟩
    intro ic hic
    cases hc : f.c.colorFlag with
    | false => simpa using h
    | true =>
      simp only [if_true]
      rw [wrap_q]
      have := Frag.wrap hic h
      simpa [show B "q " = [113, 32] from rfl, show B " " = [32] from rfl, show B " Q" = [32, 81] from rfl] using this
  | true =>
    unfold Fpdf.text
    simp only [hu, if_true]
    generalize hx : (if f.t.isRTL = true then (reverseText txt, x - f.getStringWidth (reverseText txt)) else (txt, x)) = p
    obtain ⟨t, x'⟩ := p
    have ht : t = shownText f txt := by unfold shownText; split at hx <;> simp_all
    have hne : t ≠ [] ↔ txt ≠ [] := by
      rw [ht, shownText]; split
      · simp [reverseText_eq_nil]
      · exact Iff.rfl
    dsimp only
    generalize hg : ((f.noteU16 t).useRunes t) = g
    have hstill : Still f g := by subst hg; exact ⟨rfl, rfl, rfl, rfl, rfl⟩
    have e1 : g.t.underline = f.t.underline := by subst hg; rfl
    have e2 : g.t.strikeout = f.t.strikeout := by subst hg; rfl
    obtain ⟨u1, u2, u3, u4, hul⟩ := underline_frag g x' y t
    obtain ⟨s1, s2, s3, s4, hst⟩ := strikeout_frag g x' y t
    have h := ((text_frag (x' * g.k) ((g.p.h - y) * g.k) (u16 t false)).ifAppend hul (g.t.underline = true ∧ t ≠ [])).ifAppend hst
      (g.t.strikeout = true ∧ t ≠ [])
    have d1 : Deco (f.t.underline = true ∧ txt ≠ []) (if g.t.underline = true ∧ t ≠ [] then reInstrs u1 u2 u3 u4 else []) := by
      have := Deco.mk (c := f.t.underline = true ∧ t ≠ []) (w := u1) (x := u2) (y := u3) (z := u4); rw [e1]; rwa [show (f.t.underline = true ∧ txt ≠ []) = (f.t.underline = true ∧ t ≠ []) by rw [hne]]
    have d2 : Deco (f.t.strikeout = true ∧ txt ≠ []) (if g.t.strikeout = true ∧ t ≠ [] then reInstrs s1 s2 s3 s4 else []) := by
      have := Deco.mk (c := f.t.strikeout = true ∧ t ≠ []) (w := s1) (x := s2) (y := s3) (z := s4); rw [e2]; rwa [show (f.t.strikeout = true ∧ txt ≠ []) = (f.t.strikeout = true ∧ t ≠ []) by rw [hne]]
    have hx' : x' = (if True ∧ f.t.isRTL = true then x - f.getStringWidth (reverseText txt) else x) := by
      have h0 : x' = (if f.t.isRTL = true then (reverseText txt, x - f.getStringWidth (reverseText txt)) else (txt, x)).2 := by rw [hx]
      rw [h0]
      by_cases hr : f.t.isRTL = true
      · rw [if_pos hr, if_pos ⟨trivial, hr⟩]
      · rw [if_neg hr, if_neg (fun h => hr h.2)]
    have hk : g.k = f.k ∧ g.p.h = f.p.h := by subst hg; exact ⟨rfl, rfl⟩
    refine ⟨g, _, x' * g.k, (g.p.h - y) * g.k, _, _, rfl, hstill, d1, d2, ⟨by rw [hk.1, hk.2], by rw [hk.1, hx']⟩, ?_⟩
    intro ic hic
    rw [← ht, hstill.c]
    cases hc : f.c.colorFlag with
    | false => simpa using h
    | true =>
      simp only [if_true]
      rw [wrap_q]
      have := Frag.wrap hic h
      simpa [show B "q " = [113, 32] from rfl, show B " " = [32] from rfl, show B " Q" = [32, 81] from rfl] using this

theorem Still.emits {f g : Fpdf} (h : Still f g) : Emits f g := Emits.upd h.quiet h.rest (by rw [h.err]; exact id)

theorem Still.inv {f g : Fpdf} (h : Still f g) (hi : Inv f) : Inv g := rest_inv h.rest hi

/-- A line that shows something, possibly in the text colour. -/
theorem shown_good {f g : Fpdf} {line : Bytes} {body : List Instr} (hs : Still f g) (hp : body.all (fun i => plainOp i.2) = true)
    (hn : noNames body = true) (h : ∀ ic, Frag f.c.text.str ic → Frag line (if f.c.colorFlag then inQ (ic ++ body) else body)) (hi : Inv f) :
    GoodFrag (regsOf g) line := by
  obtain ⟨ic, h1, h2, h3⟩ := hi.text
  rw [rest_regs hs.rest]
  refine ⟨_, h ic h1, ?_, ?_⟩
  · split
    · exact inQ_neutral (h2.append (PlainFrag.loose hp))
    · exact PlainFrag.neutral hp
  · split
    · refine inQ_resolved fun i hi => ?_
      rcases List.mem_append.mp hi with hi | hi
      · exact h3 i hi
      · exact resolved_of_noNames hn _ i hi
    · exact resolved_of_noNames hn _

theorem text_emits (x y : Rat) (txt : Bytes) : Emits f (f.text x y txt) := by
  obtain ⟨g, line, a, b, u, s, h1, h2, h3, h4, -, h5⟩ := text_line f x y txt
  rw [h1]
  refine ⟨h2.emits.frm.trans (Frm.out g line), fun hi => ?_⟩
  have hg := shown_good h2 (body := showInstrs a b (if f.t.isUTF8 then u16 (shownText f txt) false else txt) ++ u ++ s)
    (by rw [List.all_append, List.all_append, h3.plain.1, h4.plain.1]; rfl)
    (by have := h3.plain.2; have := h4.plain.2; simp only [noNames, List.all_append, Bool.and_eq_true] at *; exact ⟨⟨rfl, ‹_›⟩, ‹_›⟩) h5 hi
  exact (h2.emits.trans (Emits.outG fun _ => hg)).wr hi

end
end Verif.Proof
