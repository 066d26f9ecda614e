import Verif.Proof.TextEmits
/-
Cells: the exact instructions of `CellFormat`.
-/
namespace Verif.Proof
open Verif Verif.Model Verif.Spec
section
variable (f : Fpdf)

/-- The room for text in a cell. -/
def cellRoom (f : Fpdf) (w : Rat) : Int := ceilInt ((w - 2 * f.p.cMargin) * 1000 / f.t.fontSize)

/-- The instructions showing the text of a cell. -/
inductive CellShow (f : Fpdf) (w h a b : Rat) (txt align : Bytes) : List Instr → Prop
  | plain (hj : ¬ ((f.t.ws ≠ 0 ∨ align = B "J") ∧ f.t.isUTF8 = true)) : CellShow f w h a b txt align (showInstrs a b (if f.t.isUTF8 then u16 (shownText f txt) false else eolNorm txt))
  | just (hj : (f.t.ws ≠ 0 ∨ align = B "J") ∧ f.t.isUTF8 = true) :
      CellShow f w h a b txt align (justInstrs a ((f.p.h - (f.p.y + h / 2 + 3 / 10 * f.t.fontSize)) * f.k)
        (((cellRoom f w - f.getStringSymbolWidth (shownText f txt) : Int) : Rat) / (((splitSpaces (shownText f txt)).length - 1 : Nat) : Rat)) (splitSpaces (shownText f txt)))

theorem CellShow.ok {f : Fpdf} {w hh a b : Rat} {txt align : Bytes} {is : List Instr} (h : CellShow f w hh a b txt align is) :
    is.all (fun i => plainOp i.2) = true ∧ noNames is = true := by
  cases h with
  | plain => exact ⟨rfl, rfl⟩
  | just hj =>
    refine ⟨rfl, ?_⟩
    simp only [noNames, justInstrs, List.all_cons, List.all_nil, Bool.and_true, Instr.names, List.isEmpty_iff, List.filterMap_eq_nil_iff]
    refine Bool.and_eq_true_iff.mpr ⟨rfl, Bool.and_eq_true_iff.mpr ⟨rfl, Bool.and_eq_true_iff.mpr ⟨rfl, Bool.and_eq_true_iff.mpr ⟨?_, rfl⟩⟩⟩⟩
    simp only [List.isEmpty_iff, List.filterMap_eq_nil_iff]
    intro t ht
    simp only [List.cons_append, List.mem_cons, List.mem_append, List.not_mem_nil, or_false] at ht
    rcases ht with rfl | ht | rfl
    · rfl
    · exact just_names _ _ t ht
    · rfl

theorem cellText_line (w h dx dy : Rat) (txt align : Bytes) : ∃ g s is, f.cellText w h dx dy txt align = (g, s, if f.t.isUTF8 then shownText f txt else txt) ∧
    Still f g ∧ g.t.underline = f.t.underline ∧ g.t.strikeout = f.t.strikeout ∧ Frag s is ∧ CellShow f w h ((f.p.x + dx) * f.k) ((f.p.h - (f.p.y + dy + h / 2 + 3 / 10 * f.t.fontSize)) * f.k) txt align is := by
  unfold Fpdf.cellText
  by_cases hj : (f.t.ws ≠ 0 ∨ align = B "J") ∧ f.t.isUTF8 = true
  · rw [if_pos hj]
    have hu := hj.2
    simp only [hu, if_true]
    exact ⟨_, _, _, rfl, ⟨rfl, rfl, rfl, rfl, rfl⟩, rfl, rfl, just_frag _ _ _ _, CellShow.just hj⟩
  · rw [if_neg hj]
    have hp := fun a b => CellShow.plain (f := f) (w := w) (h := h) (txt := txt) (align := align) (a := a) (b := b) hj
    cases hu : f.t.isUTF8 with
    | true =>
      simp only [hu, if_true] at hp
      have et : (if True ∧ f.t.isRTL = true then reverseText txt else txt) = shownText f txt := by simp [shownText]
      simp only [if_true, et]
      exact ⟨_, _, _, rfl, ⟨rfl, rfl, rfl, rfl, rfl⟩, rfl, rfl, celltext_frag _ _ _, hp _ _⟩
    | false =>
      simp only [hu, if_false, Bool.false_eq_true] at hp
      simp only [if_false, Bool.false_eq_true]
      exact ⟨_, _, _, rfl, Still.refl f, rfl, rfl, celltext_frag' _ _ _, hp _ _⟩

theorem Still.trans {f g h : Fpdf} (h1 : Still f g) (h2 : Still g h) : Still f h :=
  ⟨h2.quiet.trans h1.quiet, h2.rest.trans h1.rest, h2.err.trans h1.err, h2.c.trans h1.c, h2.font.trans h1.font⟩

/-- The instructions of the text part of a cell. -/
def CellBody (f : Fpdf) (w h : Rat) (txt align : Bytes) (ic is : List Instr) : Prop :=
  if txt = [] then is = []
  else ∃ t u s, CellShow f w h ((f.p.x + f.cellDx w txt align) * f.k) ((f.p.h - (f.p.y + f.cellDy h align + h / 2 + 3 / 10 * f.t.fontSize)) * f.k) txt align t ∧ Deco (f.t.underline = true) u ∧ Deco (f.t.strikeout = true) s ∧
    is = if f.c.colorFlag then inQ (ic ++ (t ++ u ++ s)) else t ++ u ++ s

theorem cellContent_line (w h : Rat) (txt align : Bytes) (link : Nat) (ls : Bytes) : ∃ g s, f.cellContent w h txt align link ls = (g, s) ∧
    Still f g ∧ ∀ ic, Frag f.c.text.str ic → ∃ is, Frag s is ∧ CellBody f w h txt align ic is := by
  unfold Fpdf.cellContent CellBody
  by_cases ht : txt = []
  · simp only [ht, List.length_nil, gt_iff_lt, Nat.lt_irrefl, if_false, if_true]
    exact ⟨f, [], rfl, Still.refl f, fun ic _ => ⟨[], Frag.nil, rfl⟩⟩
  · rw [if_pos (List.length_pos_iff.mpr ht)]
    dsimp only
    obtain ⟨g, s, is, h1, h2, e1, e2, h3, h4⟩ := cellText_line f w h (f.cellDx w txt align) (f.cellDy h align) txt align
    rw [h1]
    dsimp only
    generalize (if f.t.isUTF8 = true then shownText f txt else txt) = txt'
    obtain ⟨u1, u2, u3, u4, hul⟩ := underline_frag g (g.p.x + f.cellDx w txt align) (g.p.y + f.cellDy h align + h / 2 + 3 / 10 * g.t.fontSize) txt'
    obtain ⟨s1, s2, s3, s4, hst⟩ := strikeout_frag g (g.p.x + f.cellDx w txt align) (g.p.y + f.cellDy h align + h / 2 + 3 / 10 * g.t.fontSize) txt'
    have hf := (h3.ifAppend hul (g.t.underline = true)).ifAppend hst (g.t.strikeout = true)
    refine ⟨_, _, rfl, ?_, ?_⟩
    · split
      · exact h2.trans ⟨rfl, rfl, rfl, rfl, rfl⟩
      · exact h2
    · intro ic hic
      simp only [if_neg ht, h2.c]
      have d1 : Deco (f.t.underline = true) (if g.t.underline = true then reInstrs u1 u2 u3 u4 else []) := by rw [e1]; exact Deco.mk
      have d2 : Deco (f.t.strikeout = true) (if g.t.strikeout = true then reInstrs s1 s2 s3 s4 else []) := by rw [e2]; exact Deco.mk
      cases hc : f.c.colorFlag with
      | false =>
        exact ⟨_, hf, is, _, _, h4, d1, d2, rfl⟩
      | true =>
        have hw := Frag.wrap hic hf
        exact ⟨_, hw, is, _, _, h4, d1, d2, rfl⟩

theorem CellBody.ok {f : Fpdf} {w hh : Rat} {txt align : Bytes} {ic is : List Instr} (h : CellBody f w hh txt align ic is) {r : Regs} (hn : Loose ic)
    (hr : ∀ i ∈ ic, Resolved r i) : Neutral is ∧ ∀ i ∈ is, Resolved r i := by
  unfold CellBody at h
  split at h
  · subst h; exact ⟨Neutral.nil, by simp⟩
  · obtain ⟨t, u, s, h1, h2, h3, rfl⟩ := h
    have hp : (t ++ u ++ s).all (fun i => plainOp i.2) = true := by
      rw [List.all_append, List.all_append, h1.ok.1, h2.plain.1, h3.plain.1]; rfl
    have hq : noNames (t ++ u ++ s) = true := by
      have a := h1.ok.2; have b := h2.plain.2; have c := h3.plain.2
      simp only [noNames, List.all_append, Bool.and_eq_true] at *
      exact ⟨⟨a, b⟩, c⟩
    split
    · refine ⟨inQ_neutral (hn.append (PlainFrag.loose hp)), inQ_resolved fun i hi => ?_⟩
      rcases List.mem_append.mp hi with hi | hi
      · exact hr i hi
      · exact resolved_of_noNames hq r i hi
    · exact ⟨PlainFrag.neutral hp, resolved_of_noNames hq r⟩

/-- Background and borders. -/
theorem cellRect_plain (w h : Rat) (border : Bytes) (fill : Bool) : PlainLines (f.cellRect w h border fill) := by
  unfold Fpdf.cellRect
  split
  · dsimp only
    have key : ∀ op : Bytes, op = B "B" ∨ op = B "f" ∨ op = B "S" → ∀ a b c d : Rat,
        PlainLines (sprintf "%.2f %.2f %.2f %.2f re %s " [.f a, .f b, .f c, .f d, .s op]) := by
      intro op hop a b c d
      have hp : PlainFrag (sprintf "%.2f %.2f %.2f %.2f re %s " [.f a, .f b, .f c, .f d, .s op]) := by
        rcases hop with rfl | rfl | rfl <;> exact plain_sprintf rfl rfl rfl rfl
      have e : sprintf "%.2f %.2f %.2f %.2f re %s " [.f a, .f b, .f c, .f d, .s op]
          = (sprintf "%.2f %.2f %.2f %.2f re %s" [.f a, .f b, .f c, .f d, .s op]) ++ [32] := by
        have e1 : sprintf "%.2f %.2f %.2f %.2f re %s " [.f a, .f b, .f c, .f d, .s op]
          = fmtF 2 a ++ (B " " ++ (fmtF 2 b ++ (B " " ++ (fmtF 2 c ++ (B " " ++ (fmtF 2 d ++ (B " re " ++ (op ++ [32])))))))) := sprintf_of_render rfl
        have e2 : sprintf "%.2f %.2f %.2f %.2f re %s" [.f a, .f b, .f c, .f d, .s op]
          = fmtF 2 a ++ (B " " ++ (fmtF 2 b ++ (B " " ++ (fmtF 2 c ++ (B " " ++ (fmtF 2 d ++ (B " re " ++ (op ++ [])))))))) := sprintf_of_render rfl
        rw [e1, e2]
        simp only [List.append_assoc, List.append_nil]
      rw [e] at hp ⊢
      exact hp.lines
    apply key
    split
    · split
      · exact .inl rfl
      · exact .inr (.inl rfl)
    · exact .inr (.inr rfl)
  · exact PlainLines.nil

theorem borderLine_plain (a b c d : Rat) : PlainLines (Fpdf.borderLine a b c d) := by
  unfold Fpdf.borderLine
  have hp : PlainFrag (sprintf "%.2f %.2f m %.2f %.2f l S " [.f a, .f b, .f c, .f d]) := plain_sprintf rfl rfl rfl rfl
  have e : sprintf "%.2f %.2f m %.2f %.2f l S " [.f a, .f b, .f c, .f d] = (sprintf "%.2f %.2f m %.2f %.2f l S" [.f a, .f b, .f c, .f d]) ++ [32] := by
    have e1 : sprintf "%.2f %.2f m %.2f %.2f l S " [.f a, .f b, .f c, .f d]
      = fmtF 2 a ++ (B " " ++ (fmtF 2 b ++ (B " m " ++ (fmtF 2 c ++ (B " " ++ (fmtF 2 d ++ B " l S ")))))) := sprintf_of_render rfl
    have e2 : sprintf "%.2f %.2f m %.2f %.2f l S" [.f a, .f b, .f c, .f d]
      = fmtF 2 a ++ (B " " ++ (fmtF 2 b ++ (B " m " ++ (fmtF 2 c ++ (B " " ++ (fmtF 2 d ++ B " l S")))))) := sprintf_of_render rfl
    have e3 : B " l S " = B " l S" ++ [32] := by decide
    rw [e1, e2, e3]
    simp only [List.append_assoc]
  rw [e] at hp ⊢
  exact hp.lines

theorem PlainLines.ite {s : Bytes} (h : PlainLines s) (c : Prop) [Decidable c] : PlainLines (if c then s else []) := by
  split
  · exact h
  · exact PlainLines.nil

theorem cellBorder_plain (w h : Rat) (border : Bytes) : PlainLines (f.cellBorder w h border) := by
  unfold Fpdf.cellBorder
  split
  · exact ((((borderLine_plain _ _ _ _).ite _).append ((borderLine_plain _ _ _ _).ite _)).append ((borderLine_plain _ _ _ _).ite _)).append
      ((borderLine_plain _ _ _ _).ite _)
  · exact PlainLines.nil

/-- What a cell writes: background and borders, then the text. -/
theorem cellDraw_line (w h : Rat) (txt border : Bytes) (ln : Int) (align : Bytes) (fill : Bool) (link : Nat) (ls : Bytes) :
    ∃ g pre s w', f.cellDraw w h txt border ln align fill link ls = (if (pre ++ s).length > 0 then g.out (pre ++ s) else g).cellAdvance w' h ln ∧
      Still f g ∧ PlainLines pre ∧ (∀ ic, Frag f.c.text.str ic → ∃ is, Frag s is ∧ CellBody f w' h txt align ic is) ∧
      w' = (if w = 0 then f.p.w - f.p.rMargin - f.p.x else w) ∧ pre = f.cellRect w' h border fill ++ f.cellBorder w' h border := by
  unfold Fpdf.cellDraw
  dsimp only
  generalize (if w = 0 then f.p.w - f.p.rMargin - f.p.x else w) = w'
  obtain ⟨g, s, h1, h2, h3⟩ := cellContent_line f w' h txt align link ls
  rw [h1]
  exact ⟨g, _, s, w', rfl, h2, (cellRect_plain f w' h border fill).append (cellBorder_plain f w' h border), h3, rfl, rfl⟩

theorem cellAdvance_emits (w h : Rat) (ln : Int) : Emits f (f.cellAdvance w h ln) := by
  unfold Fpdf.cellAdvance
  dsimp only
  split
  · split <;> exact Emits.upd rfl rfl id
  · exact Emits.upd rfl rfl id

theorem cellDraw_emits (w h : Rat) (txt border : Bytes) (ln : Int) (align : Bytes) (fill : Bool) (link : Nat) (ls : Bytes) :
    Emits f (f.cellDraw w h txt border ln align fill link ls) := by
  obtain ⟨g, pre, s, w', h1, h2, h3, h4, _⟩ := cellDraw_line f w h txt border ln align fill link ls
  rw [h1]
  refine Emits.trans ?_ (cellAdvance_emits _ _ _ _)
  refine Emits.ite (fun _ => ?_) (fun _ => h2.emits)
  refine ⟨h2.emits.frm.trans (Frm.out _ _), fun hi => ?_⟩
  have hg : GoodFrag (regsOf g) (pre ++ s) := by
    rw [rest_regs h2.rest]
    obtain ⟨ic, a1, a2, a3⟩ := hi.text
    obtain ⟨ip, b1, b2, b3⟩ := h3
    obtain ⟨is, c1, c2⟩ := h4 ic a1
    have c3 := c2.ok a2 a3
    refine ⟨_, b1.frag c1, (PlainFrag.neutral b2).append c3.1, ?_⟩
    intro i hi
    rcases List.mem_append.mp hi with hi | hi
    · exact resolved_of_noNames b3 _ i hi
    · exact c3.2 i hi
  exact (h2.emits.trans (Emits.outG fun _ => hg)).wr hi

theorem endWs_emits : Emits f f.endWs := by
  unfold Fpdf.endWs
  refine Emits.ite (fun _ => ?_) (fun _ => Emits.refl f)
  dsimp only
  have h : PlainFrag (B "0 Tw") := by
    have := plain_sprintf (fmt := "0 Tw") (args := []) rfl rfl rfl rfl
    rwa [B_sprintf "0 Tw" (by decide)] at this
  exact Emits.trans (g := { f with t.ws := 0 }) (Emits.upd rfl rfl id) (Emits.outP h)

end
end Verif.Proof
