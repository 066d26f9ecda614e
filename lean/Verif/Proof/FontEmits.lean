import Verif.Proof.ResEmits
/-
Selecting fonts.
-/
namespace Verif.Proof
open Verif Verif.Model Verif.Spec
section
variable (f : Fpdf)

omit f in
theorem hexDigit_regular (n : Fin 256) : isRegular (hexDigit (n.val / 16)) = true ∧ isRegular (hexDigit (n.val % 16)) = true := by
  revert n; decide +kernel

omit f in
theorem hexEnc_regular (b : Bytes) : ∀ c ∈ hexEnc b, isRegular c = true := by
  intro c hc
  obtain ⟨x, _, hx⟩ := List.mem_flatMap.mp hc
  have h := hexDigit_regular ⟨x.toNat, x.toNat_lt⟩
  simp only [List.mem_cons, List.not_mem_nil, or_false] at hx
  rcases hx with rfl | rfl
  · exact h.1
  · exact h.2

omit f in
theorem font_good {r : Regs} {i : Bytes} (hreg : ∀ c ∈ i, isRegular c = true) (sz : Rat)
    (h : i = [] ∨ ∃ k d, lookup k r.fonts = some d ∧ d.i = i) : GoodFrag r (sprintf "BT /F%s %.2f Tf ET" [.s i, .f sz]) := by
  have h0 := sprintf_frag "BT /F%s %.2f Tf ET" [.reg i, .f sz] (is := [([], B "BT"), ([.name (B "F" ++ i), .word (fmtF 2 sz)], B "Tf"),
    ([], B "ET")]) rfl (by
      intro a ha; simp only [List.mem_cons, List.not_mem_nil, or_false] at ha; rcases ha with rfl | rfl
      · exact hreg
      · trivial)
  refine ⟨_, h0, PlainFrag.neutral rfl, ?_⟩
  intro x hx
  simp only [List.mem_cons, List.not_mem_nil, or_false] at hx
  rcases hx with rfl | rfl | rfl
  · intro nm hnm; cases hnm
  · intro nm hnm
    simp only [Instr.names, List.filterMap_cons, List.filterMap_nil, List.mem_singleton] at hnm
    subst hnm
    show resolves _ (B "Tf") _
    simp only [resolves, show B "Tf" ≠ B "gs" by decide, show B "Tf" ≠ B "sh" by decide, show B "Tf" ≠ B "BDC" by decide,
      show ¬ (B "Tf" = B "CS" ∨ B "Tf" = B "cs") by decide, if_false, if_true]
    rcases h with h | ⟨k, d, h1, h2⟩
    · exact .inl (by rw [h]; rfl)
    · exact .inr ⟨k, d, h1, by rw [h2]⟩
  · intro nm hnm; cases hnm

omit f in
theorem Inv.fontReg {f : Fpdf} (h : Inv f) : ∀ c ∈ f.t.currentFont.i, isRegular c = true := by
  rcases h.font with h1 | ⟨k, d, h1, h2⟩
  · rw [h1]; simp
  · rw [← h2]; exact h.fonts k d h1

theorem outFont_emits : Emits f f.outFont := by
  unfold Fpdf.outFont
  exact Emits.ite (fun _ => Emits.outG fun hi => font_good hi.fontReg _ hi.font) (fun _ => Emits.refl f)

theorem selectFont_emits (fam st : Bytes) (sz : Rat) (d : FontDef) (h : d.i = [] ∨ ∃ k, lookup k f.t.fonts = some d) :
    Emits f (f.selectFont fam st sz d) := by
  unfold Fpdf.selectFont
  dsimp only
  refine Emits.trans ?_ (outFont_emits _)
  refine Emits.reg rfl id (fun _ => RegsLe.refl _) rfl rfl (fun hi => { hi with font := ?_ })
  rcases h with h | ⟨k, h⟩
  · exact .inl h
  · exact .inr ⟨k, d, h, rfl⟩

theorem addFont_reg {g : Fpdf} {key : Bytes} {d : FontDef} (hf : lookup key f.t.fonts = none) (hd : ∀ c ∈ d.i, isRegular c = true)
    (hq : quiet g = quiet f) (he : f.err ≠ none → g.err ≠ none) (hr : rest g = rest { f with t.fonts := Model.insert key d f.t.fonts }) :
    Emits f g := by
  have hle : RegsLe (regsOf f) (regsOf { f with t.fonts := Model.insert key d f.t.fonts }) :=
    { RegsLe.refl _ with fonts := fun k c h => lookup_insert_fresh hf h }
  refine Emits.reg hq he (fun _ => ?_) ((rest_nest hr).trans rfl) ((rest_lay hr).trans rfl) (fun hi => rest_inv hr ?_)
  · rw [rest_regs hr]; exact hle
  · refine ⟨hi.draw.mono hle, hi.fill.mono hle, hi.text.mono hle, ?_, ?_, hi.imgs, hi.bmap⟩
    · rcases hi.font with h | ⟨k, d', h1, h2⟩
      · exact .inl h
      · exact .inr ⟨k, d', hle.fonts _ _ h1, h2⟩
    · intro k d' h
      simp only [regsOf, lookup_insert] at h
      split at h
      · cases h; exact hd
      · exact hi.fonts k d' h

theorem addFontDef_emits (E : Ext) (fam st : Bytes) (info : Option FontDef) (ff : FontFile) : Emits f (f.addFontDef E fam st info ff) := by
  unfold Fpdf.addFontDef
  refine Emits.ite (fun _ => Emits.refl f) (fun _ => ?_)
  dsimp only
  generalize getFontKey (fontFamilyEscape fam) st = key
  cases hl : lookup key f.t.fonts with
  | some _ => exact Emits.refl f
  | none =>
    cases info with
    | none => exact assignErr_emits f _
    | some d =>
      dsimp only
      have hreg := hexEnc_regular (E.fontHash d)
      generalize hexEnc (E.fontHash d) = hx at hreg ⊢
      by_cases h1 : d.diff ≠ []
      · simp only [h1, ne_eq, not_false_iff, if_true]
        cases diffIdx d.diff f.t.diffs with
        | some n => dsimp only; split <;> exact addFont_reg f hl hreg rfl id rfl
        | none => dsimp only; split <;> exact addFont_reg f hl hreg rfl id rfl
      · simp only [h1, if_false]
        split <;> exact addFont_reg f hl hreg rfl id rfl

theorem addFontFile_emits (E : Ext) (fam st : Bytes) (o : Bool) (info : Option FontDef) (ff : FontFile) : Emits f (f.addFontFile E fam st o info ff) := by
  unfold Fpdf.addFontFile
  exact Emits.ite (fun _ => addFontDef_emits f E fam st info ff) (fun _ => assignErr_emits f _)

theorem addUTF8Font_emits (E : Ext) (fam st file : Bytes) (info : Option FontDef) (se : Bool) : Emits f (f.addUTF8Font E fam st file info se) := by
  unfold Fpdf.addUTF8Font
  refine Emits.ite (fun _ => Emits.refl f) (fun _ => ?_)
  dsimp only
  generalize getFontKey (fontFamilyEscape fam) st = key
  cases hl : lookup key f.t.fonts with
  | some _ => exact Emits.refl f
  | none =>
    cases info with
    | none => exact Emits.ite (fun _ => setErrorf_emits f _) (fun _ => Emits.refl f)
    | some d =>
      dsimp only
      split <;> exact addFont_reg f hl (hexEnc_regular _) rfl id rfl

/-- `setFont` after the arguments are normalised. -/
def setFontTail (E : Ext) (f : Fpdf) (fam st : Bytes) (sz : Rat) : Fpdf :=
  match lookup (fam ++ st) f.t.fonts with
  | some d => f.selectFont fam st sz d
  | none =>
    let family := if fam = B "arial" then B "helvetica" else fam
    if family ∈ coreFonts then
      let family := if family = B "symbol" then B "zapfdingbats" else family
      let style := if family = B "zapfdingbats" then [] else st
      match lookup (family ++ style) f.t.fonts with
      | some d => f.selectFont family style sz d
      | none =>
        match E.coreFont (family ++ style) with
        | none => f.setErrorf "could not locate font among embedded core font definition files"
        | some d =>
          let f := f.addFontDef E family style (some d) {}
          if f.err ≠ none then f
          else
            match lookup (family ++ style) f.t.fonts with
            | some d => f.selectFont family style sz d
            | none => f.selectFont family style sz {}
    else f.assignErr "undefined font"

theorem setFontTail_emits (E : Ext) (fam st : Bytes) (sz : Rat) : Emits f (setFontTail E f fam st sz) := by
  unfold setFontTail
  cases hl : lookup (fam ++ st) f.t.fonts with
  | some d => exact selectFont_emits f _ _ _ _ (.inr ⟨_, hl⟩)
  | none =>
    dsimp only
    generalize (if fam = B "arial" then B "helvetica" else fam) = fam
    refine Emits.ite (fun _ => ?_) (fun _ => assignErr_emits f _)
    generalize (if fam = B "symbol" then B "zapfdingbats" else fam) = fam
    generalize (if fam = B "zapfdingbats" then [] else st) = st
    cases hl : lookup (fam ++ st) f.t.fonts with
    | some d => exact selectFont_emits f _ _ _ _ (.inr ⟨_, hl⟩)
    | none =>
      dsimp only
      cases E.coreFont (fam ++ st) with
      | none => exact setErrorf_emits f _
      | some d =>
        dsimp only
        refine (addFontDef_emits f E fam st (some d) {}).trans ?_
        generalize f.addFontDef E fam st (some d) {} = g
        refine Emits.ite (fun _ => Emits.refl g) (fun _ => ?_)
        cases hl : lookup (fam ++ st) g.t.fonts with
        | some d => exact selectFont_emits g _ _ _ _ (.inr ⟨_, hl⟩)
        | none => exact selectFont_emits g _ _ _ _ (.inl rfl)

/-- The family and size `SetFont` works with. -/
theorem setFont_eq (E : Ext) (fam st : Bytes) (sz : Rat) (h : f.err = none) :
    f.setFont E fam st sz = setFontTail E { f with t.underline := (Fpdf.parseStyle st).1, t.strikeout := (Fpdf.parseStyle st).2.1 }
      (if fontFamilyEscape fam = [] then f.t.fontFamily else toLower (fontFamilyEscape fam)) (Fpdf.parseStyle st).2.2
      (if sz = 0 then f.t.fontSizePt else sz) := by
  unfold Fpdf.setFont setFontTail
  rw [if_neg (by simp [h])]
  rfl

theorem setFont_emits (E : Ext) (fam st : Bytes) (sz : Rat) : Emits f (f.setFont E fam st sz) := by
  by_cases h : f.err = none
  · rw [setFont_eq f E fam st sz h]
    exact Emits.trans (g := { f with t.underline := (Fpdf.parseStyle st).1, t.strikeout := (Fpdf.parseStyle st).2.1 })
      (Emits.upd rfl rfl id) (setFontTail_emits _ E _ _ _)
  · unfold Fpdf.setFont
    rw [if_pos h]; exact Emits.refl f

theorem setFontStyle_emits (E : Ext) (st : Bytes) : Emits f (f.setFontStyle E st) := setFont_emits f E _ _ _

theorem setFontSize_emits (sz : Rat) : Emits f (f.setFontSize sz) :=
  Emits.trans (g := { f with t.fontSizePt := sz, t.fontSize := sz / f.k }) (Emits.upd rfl rfl id) (outFont_emits _)

theorem setFontUnitSize_emits (sz : Rat) : Emits f (f.setFontUnitSize sz) :=
  Emits.trans (g := { f with t.fontSizePt := sz * f.k, t.fontSize := sz }) (Emits.upd rfl rfl id) (outFont_emits _)

end
end Verif.Proof
