import Verif.Proof.Flow
/-
Errors stay. `Keep`: an error recorded is still there, and the same.
-/
namespace Verif.Proof
open Verif Verif.Model Verif.Spec

/-- An error is not removed. -/
def Latch (f g : Fpdf) : Prop := f.err ≠ none → g.err ≠ none

/-- The error recorded is the one that stays. -/
def Keep (f g : Fpdf) : Prop := ∀ e, f.err = some e → g.err = some e

theorem Keep.refl (f : Fpdf) : Keep f f := fun _ h => h
theorem Keep.trans {f g h : Fpdf} (a : Keep f g) (b : Keep g h) : Keep f h := fun e he => b e (a e he)
theorem Keep.of {f g : Fpdf} (h : g.err = f.err) : Keep f g := fun _ he => h.trans he
theorem Keep.ite {f g h : Fpdf} {c : Prop} [Decidable c] (h1 : c → Keep f g) (h2 : ¬ c → Keep f h) : Keep f (if c then g else h) := by
  split
  · exact h1 ‹_›
  · exact h2 ‹_›
theorem Keep.foldl {α} (F : Fpdf → α → Fpdf) (h : ∀ f a, Keep f (F f a)) (l : List α) (f : Fpdf) : Keep f (l.foldl F f) := by
  induction l generalizing f with
  | nil => exact Keep.refl f
  | cons a l ih => exact (h f a).trans (ih _)

theorem out_err (f : Fpdf) (s : Bytes) : (f.out s).err = f.err := by unfold Fpdf.out; split <;> rfl
theorem outs_err (f : Fpdf) (s : String) : (f.outs s).err = f.err := out_err f _
theorem outf_err (f : Fpdf) (s : String) (a : List Arg) : (f.outf s a).err = f.err := out_err f _
theorem foldl_err {α} (F : Fpdf → α → Fpdf) (h : ∀ f a, (F f a).err = f.err) (l : List α) (f : Fpdf) : (l.foldl F f).err = f.err := by
  induction l generalizing f with
  | nil => rfl
  | cons a l ih => exact (ih _).trans (h f a)

section
variable (f : Fpdf)

theorem point_err (x y : Rat) : (f.point x y).err = f.err := outf_err f _ _
theorem curve_err (a b c d e g : Rat) : (f.curve a b c d e g).err = f.err := outf_err f _ _
theorem drawPath_err (s : Bytes) : (f.drawPath s).err = f.err := out_err f _
theorem clipArc_err (a b c d e g : Rat) : (f.clipArc a b c d e g).err = f.err := outf_err f _ _
theorem outputDashPattern_err : f.outputDashPattern.err = f.err := out_err f _
theorem outFont_err : f.outFont.err = f.err := by unfold Fpdf.outFont; split <;> simp only [outf_err]
theorem endLayer_err : f.endLayer.err = f.err := by unfold Fpdf.endLayer; split <;> simp only [outs_err]

theorem ite_err {c : Prop} [Decidable c] {g h : Fpdf} {e : Option String} (h1 : g.err = e) (h2 : h.err = e) : (if c then g else h).err = e := by
  split <;> assumption

theorem ite_clipArc_err {p : Prop} [Decidable p] (a b c d e g : Rat) : (if p then f.clipArc a b c d e g else f).err = f.err := by
  split
  · exact clipArc_err f a b c d e g
  · rfl

theorem roundedRectPath_err (T : Trig) (x y w h a b c d : Rat) : (f.roundedRectPath T x y w h a b c d).err = f.err := by
  unfold Fpdf.roundedRectPath
  dsimp only
  simp only [ite_clipArc_err, outf_err]

theorem polygon_err (p : List (Rat × Rat)) (s : Bytes) : (f.polygon p s).err = f.err := by
  unfold Fpdf.polygon
  split
  · split
    · dsimp only
      rw [drawPath_err, outf_err, foldl_err _ (fun f a => outf_err f _ _), point_err]
    · rfl
  · rfl

theorem beziergonLoop_err (l : List (Rat × Rat)) : (f.beziergonLoop l).err = f.err := by
  fun_induction Fpdf.beziergonLoop f l with
  | case1 f a b c r ih => rw [ih, curve_err]
  | case2 f l h => rfl

theorem arcSegs_err (T : Trig) (a b c d e g h : Rat) (path : Bool) (l : List Nat) (s : Fpdf × Rat × Rat × Rat × Rat) :
    (l.foldl (fun s j => Fpdf.arcSeg T a b c d e g h path s (j + 1)) s).1.err = s.1.err := by
  induction l generalizing s with
  | nil => rfl
  | cons j l ih =>
    rw [List.foldl_cons, ih]
    unfold Fpdf.arcSeg
    dsimp only
    split
    · exact curve_err _ _ _ _ _ _ _
    · exact curve_err _ _ _ _ _ _ _

theorem arc_err (T : Trig) (x y rx ry r a b : Rat) (s : Bytes) (p : Bool) : (f.arc T x y rx ry r a b s p).err = f.err := by
  unfold Fpdf.arc
  dsimp only
  generalize hp : (if r ≠ 0 then _ else (f, x * f.k, (f.p.h - y) * f.k)) = q
  have h1 : q.1.err = f.err := by rw [← hp]; split <;> simp only [outf_err]
  split
  · rw [outs_err]
    split
    · rw [arcSegs_err]; dsimp only
      split
      · exact Eq.trans (outf_err _ _ _) h1
      · exact h1
    · rw [out_err, arcSegs_err]; dsimp only
      rw [point_err]; exact h1
  · split
    · rw [arcSegs_err]; dsimp only
      split
      · exact Eq.trans (outf_err _ _ _) h1
      · exact h1
    · rw [out_err, arcSegs_err]; dsimp only
      rw [point_err]; exact h1

theorem transform_keep (a b c d e g : Rat) : Keep f (f.transform a b c d e g) := by
  unfold Fpdf.transform
  refine Keep.ite (fun _ => Keep.of (outf_err _ _ _)) (fun _ => Keep.ite (fun h => ?_) (fun _ => Keep.refl f))
  intro e he; rw [h] at he; cases he

theorem setErrorf_keep (e : String) : Keep f (f.setErrorf e) := by
  intro e' he
  unfold Fpdf.setErrorf
  rw [he]; exact he

theorem none_keep (g : Fpdf) (h : f.err = none) : Keep f g := by intro e he; rw [h] at he; cases he

theorem getSpotColor_keep (n : Bytes) : Keep f (f.getSpotColor n).1 := by
  unfold Fpdf.getSpotColor
  split
  · exact none_keep f _ ‹_›
  · exact Keep.refl f

end

/-- The calls that may replace an error recorded earlier by another one. -/
def replacesError : Op → Bool
  | .clearError | .setPageBox .. | .transformScale .. | .transformSkew .. | .transformEnd | .registerImageFile .. | .addFontFile .. => true
  | _ => false

macro "kp" : tactic => `(tactic| (first
  | exact Keep.refl _
  | exact Keep.of rfl
  | exact Keep.of (out_err _ _)
  | exact Keep.of (outf_err _ _ _)))

theorem exec_keep (E : Ext) (cb : Cb) (f : Fpdf) (op : Op) (hs : staysOnPage op = true) (hd : replacesError op = false) : Keep f (f.exec E cb op) := by
  cases op with
  | addPage | addPageFormat | setPage | cell | multiCell | write | writeAligned | subWrite | image | close | output | clearError =>
    simp [staysOnPage] at hs
  | setPageBox | transformScale | transformSkew | transformEnd | registerImageFile | addFontFile => simp [replacesError] at hd
  | setError e => exact setErrorf_keep f e
  | setLeftMargin m => show Keep f (f.setLeftMargin m); unfold Fpdf.setLeftMargin; dsimp only; split <;> kp
  | setDisplayMode z l =>
    show Keep f (f.setDisplayMode z l)
    unfold Fpdf.setDisplayMode
    split
    · kp
    · rename_i h; exact none_keep f _ (by simpa using h)
  | setMeta k s u => show Keep f (f.setMeta k s u); unfold Fpdf.setMeta; cases k <;> cases u <;> kp
  | setProtection fl u o => exact Keep.ite (fun _ => Keep.refl f) (fun _ => Keep.of rfl)
  | setDrawColor r g b => show Keep f (f.setDrawColor r g b); unfold Fpdf.setDrawColor; dsimp only; split <;> kp
  | setFillColor r g b => show Keep f (f.setFillColor r g b); unfold Fpdf.setFillColor; dsimp only; split <;> kp
  | addSpotColor n c m y k =>
    show Keep f (f.addSpotColor n c m y k)
    unfold Fpdf.addSpotColor
    split
    · exact none_keep f _ ‹_›
    · kp
  | setDrawSpotColor n t =>
    show Keep f (f.setDrawSpotColor n t)
    have h := getSpotColor_keep f n
    unfold Fpdf.setDrawSpotColor
    split <;> rename_i hq <;> rw [hq] at h <;> dsimp only at h ⊢
    · split
      · exact h.trans (Keep.of (out_err _ _))
      · exact h
    · exact h
  | setFillSpotColor n t =>
    show Keep f (f.setFillSpotColor n t)
    have h := getSpotColor_keep f n
    unfold Fpdf.setFillSpotColor
    split <;> rename_i hq <;> rw [hq] at h <;> dsimp only at h ⊢
    · split
      · exact h.trans (Keep.of (out_err _ _))
      · exact h
    · exact h
  | setTextSpotColor n t =>
    show Keep f (f.setTextSpotColor n t)
    have h := getSpotColor_keep f n
    unfold Fpdf.setTextSpotColor
    split <;> rename_i hq <;> rw [hq] at h <;> exact h
  | setLineWidth w => show Keep f (f.setLineWidth w); unfold Fpdf.setLineWidth; dsimp only; split <;> kp
  | setLineCapStyle s => show Keep f (f.setLineCapStyle s); unfold Fpdf.setLineCapStyle; dsimp only; split <;> kp
  | setLineJoinStyle s => show Keep f (f.setLineJoinStyle s); unfold Fpdf.setLineJoinStyle; dsimp only; split <;> kp
  | setDashPattern a p => show Keep f (f.setDashPattern a p); unfold Fpdf.setDashPattern; dsimp only; split <;> kp
  | line a b c d => kp
  | rect x y w h s => kp
  | roundedRect x y w h a b c d s => exact Keep.of ((out_err _ _).trans (roundedRectPath_err f _ _ _ _ _ _ _ _ _))
  | polygon p s => exact Keep.of (polygon_err f p s)
  | beziergon p s =>
    show Keep f (f.beziergon p s)
    unfold Fpdf.beziergon
    split
    · split
      · kp
      · exact Keep.of (by rw [drawPath_err, beziergonLoop_err, point_err])
    · kp
  | curve a b c d e g s => exact Keep.of ((outf_err _ _ _).trans (point_err f _ _))
  | curveBezierCubic a b c d e g i j s => exact Keep.of ((outf_err _ _ _).trans (point_err f _ _))
  | arc x y rx ry r a b s p => exact Keep.of (arc_err f _ _ _ _ _ _ _ _ _ _)
  | moveTo x y => exact Keep.of (point_err f _ _)
  | lineTo x y => exact Keep.of (outf_err f _ _)
  | curveTo a b x y => exact Keep.of (outf_err f _ _)
  | curveBezierCubicTo a b c d x y => exact Keep.of (outf_err f _ _)
  | closePath => kp
  | drawPath s => kp
  | setAlpha a m =>
    show Keep f (f.setAlpha a m)
    unfold Fpdf.setAlpha
    split
    · kp
    · rename_i h; exact none_keep f _ (by simpa using h)
  | gradient rad x y w h c1 c2 x1 y1 x2 y2 r =>
    show Keep f (f.areaGradient _ x y w h c1 c2 x1 y1 x2 y2 r)
    refine Keep.of ?_
    unfold Fpdf.areaGradient Fpdf.gradient Fpdf.gradientClipStart
    rw [outs_err]
    exact (outf_err _ _ _).trans ((outf_err _ _ _).trans (outf_err _ _ _))
  | clipRect x y w h o => kp
  | clipText x y t o => kp
  | clipRoundedRect x y w h a b c d o =>
    show Keep f (f.clipRoundedRectExt _ x y w h a b c d o)
    unfold Fpdf.clipRoundedRectExt
    exact Keep.of ((outf_err _ _ _).trans (roundedRectPath_err _ _ _ _ _ _ _ _ _ _))
  | clipEllipse x y rx ry o =>
    show Keep f (f.clipEllipse _ x y rx ry o)
    unfold Fpdf.clipEllipse
    dsimp only
    exact Keep.of (by rw [outf_err, outf_err, outf_err, outf_err])
  | clipPolygon p o => kp
  | clipEnd =>
    show Keep f f.clipEnd
    unfold Fpdf.clipEnd
    split
    · exact none_keep f _ ‹_›
    · kp
  | transformBegin => kp
  | transform a b c d e g => exact transform_keep f _ _ _ _ _ _
  | transformMirrorLine a x y =>
    show Keep f ((f.transformScale (-100) 100 x y).transformRotate E.T _ x y)
    have h1 : Keep f (f.transformScale (-100) 100 x y) := by
      unfold Fpdf.transformScale
      rw [if_neg (by decide)]
      exact transform_keep f _ _ _ _ _ _
    exact h1.trans (transform_keep _ _ _ _ _ _ _)
  | transformTranslate tx ty => exact transform_keep f _ _ _ _ _ _
  | transformRotate a x y => exact transform_keep f _ _ _ _ _ _
  | addLayer n v => kp
  | beginLayer id =>
    show Keep f (f.beginLayer id)
    unfold Fpdf.beginLayer
    dsimp only
    split
    · exact Keep.of ((outf_err _ _ _).trans (endLayer_err f))
    · exact Keep.of (endLayer_err f)
  | endLayer => exact Keep.of (endLayer_err f)
  | addFont fam st info ff =>
    show Keep f (f.addFontDef E fam st info ff)
    unfold Fpdf.addFontDef
    split
    · kp
    · rename_i h; exact none_keep f _ (by simpa using h)
  | addUTF8Font fam st file info se =>
    show Keep f (f.addUTF8Font E fam st file info se)
    unfold Fpdf.addUTF8Font
    dsimp only
    split
    · kp
    · cases lookup (getFontKey (fontFamilyEscape fam) st) f.t.fonts with
      | some _ => kp
      | none =>
        cases info with
        | none => exact Keep.ite (fun _ => setErrorf_keep f _) (fun _ => Keep.refl f)
        | some d => dsimp only; split <;> kp
  | setFont fam st sz =>
    show Keep f (f.setFont E fam st sz)
    unfold Fpdf.setFont
    split
    · kp
    · rename_i h; exact none_keep f _ (by simpa using h)
  | setFontStyle st =>
    show Keep f (f.setFont E _ st _)
    unfold Fpdf.setFont
    split
    · kp
    · rename_i h; exact none_keep f _ (by simpa using h)
  | setFontSize sz => exact Keep.of (outFont_err _)
  | setFontUnitSize sz => exact Keep.of (outFont_err _)
  | setLink l y p => show Keep f (f.setLink l y p); unfold Fpdf.setLink; split <;> kp
  | bookmark t l y => show Keep f (f.bookmark t l y); unfold Fpdf.bookmark; dsimp only; split <;> kp
  | text x y t =>
    show Keep f (f.text x y t)
    unfold Fpdf.text
    dsimp only
    split <;> exact Keep.of (out_err _ _)
  | setTextRenderingMode m => show Keep f (f.setTextRenderingMode m); unfold Fpdf.setTextRenderingMode; split <;> kp
  | registerImage n p =>
    show Keep f (f.registerImage E n p)
    unfold Fpdf.registerImage
    split
    · kp
    · rename_i h; exact none_keep f _ (by simpa using h)
  | useTemplate t c s =>
    show Keep f (f.useTemplate E t c s)
    unfold Fpdf.useTemplate
    split
    · exact setErrorf_keep f _
    · split
      · exact setErrorf_keep f _
      · dsimp only
        exact Keep.of ((outf_err _ _ _).trans (outf_err _ _ _))
  | attachAnnotation p a x y w h =>
    show Keep f (f.attachAnnotation p a x y w h)
    unfold Fpdf.attachAnnotation
    dsimp only
    split <;> kp
  | _ => kp

/-! ### Calls with other calls inside -/

theorem addPageFormat_of_err (E : Ext) (cb : Cb) (f : Fpdf) (o : Bytes) (sz : Size) (h : f.err ≠ none) : f.addPageFormat E cb o sz = f := by
  unfold Fpdf.addPageFormat; rw [if_pos h]

theorem close_of_err (E : Ext) (cb : Cb) (f : Fpdf) (h : f.err ≠ none) : f.close E cb = f := by
  unfold Fpdf.close; dsimp only; rw [if_neg h, if_pos h]

theorem output_of_err (E : Ext) (cb : Cb) (f : Fpdf) (b : Bool) (h : f.err ≠ none) : f.output E cb b = ([], f, f.err) := by
  unfold Fpdf.output; rw [if_pos h]

theorem exec_latch (E : Ext) (cb : Cb) (hcb : Cb.Rel (fun _ => True) Latch cb) (f : Fpdf) (op : Op) (hop : op ≠ .clearError) : Latch f (f.exec E cb op) := by
  rcases op_cases op with h | h | rfl | ⟨o, sz, rfl⟩ | ⟨n, rfl⟩ | rfl | ⟨b, rfl⟩ | rfl
  · exact (exec_frm E cb f op h).latch
  · refine exec_flow (R := Latch) ⟨fun _ h => h, fun _ _ _ a b h => b (a h), fun f g h => h.emits.frm.latch, hcb.accept, ?_, ?_, ?_⟩ f op h
    · intro f o sz h; rw [addPageFormat_of_err E cb f o sz h]; exact h
    · intro f g info a b c d h _ he; rw [outf_err]; exact h he
    · intro f op h; exact (exec_frm E cb f op (helper_stays h)).latch
  · intro h
    show (f.addPage E cb).err ≠ none
    unfold Fpdf.addPage; rw [if_pos h]; exact h
  · intro h
    show (f.addPageFormat E cb o sz).err ≠ none
    rw [addPageFormat_of_err E cb f o sz h]; exact h
  · intro h
    show (f.setPage n).err ≠ none
    unfold Fpdf.setPage
    split <;> exact h
  · intro h
    show (f.close E cb).err ≠ none
    rw [close_of_err E cb f h]; exact h
  · intro h
    show (f.output E cb b).2.1.err ≠ none
    rw [output_of_err E cb f b h]; exact h
  · exact absurd rfl hop

/-- A call that leaves a document with an error alone. -/
theorem keep_of_same {f g : Fpdf} (h : f.err ≠ none → g.err = f.err) : Keep f g := by
  intro e he
  rw [h (by rw [he]; simp)]; exact he

theorem cellFormat_of_err (E : Ext) (cb : Cb) (f : Fpdf) (w h : Rat) (t b : Bytes) (ln : Int) (a : Bytes) (fi : Bool) (l : Nat) (ls : Bytes) (he : f.err ≠ none) :
    f.cellFormat E cb w h t b ln a fi l ls = f := by
  unfold Fpdf.cellFormat; rw [if_pos he]

theorem wrReset_err (f : Fpdf) (v : Fpdf.WrVars) : (f.wrReset v).1.err = f.err := by
  unfold Fpdf.wrReset
  dsimp only
  split <;> rfl

theorem wrLoop_err (E : Ext) (cb : Cb) (P : Fpdf.WrParams) (fuel : Nat) (f : Fpdf) (v : Fpdf.WrVars) (he : f.err ≠ none) :
    (Fpdf.wrLoop E cb P fuel f v).err = f.err := by
  induction fuel generalizing f v with
  | zero => rfl
  | succ fuel ih =>
    have hr : ∀ (v w : Fpdf.WrVars), (Fpdf.wrLoop E cb P fuel (f.wrReset v).1 w).err = f.err := fun v w => by
      rw [ih _ _ (by rw [wrReset_err]; exact he), wrReset_err]
    unfold Fpdf.wrLoop
    simp only [cellFormat_of_err E cb f _ _ _ _ _ _ _ _ _ he]
    split
    · split <;> rfl
    · split
      · exact hr _ _
      · generalize (if _ = 32 then ({ v with sep := some v.i } : Fpdf.WrVars) else v) = v'
        split
        · rfl
        · split
          · split
            · split
              · refine Eq.trans (ih _ _ ?_) rfl
                exact he
              · exact hr _ _
            · exact hr _ _
          · exact ih _ _ he

theorem write_err (E : Ext) (cb : Cb) (f : Fpdf) (h : Rat) (t : Bytes) (l : Nat) (ls : Bytes) (he : f.err ≠ none) : (f.write E cb h t l ls).err = f.err := by
  unfold Fpdf.write
  dsimp only
  split
  · rfl
  · exact wrLoop_err E cb _ _ f _ he

theorem setLeftMargin_err (f : Fpdf) (m : Rat) : (f.setLeftMargin m).err = f.err := by
  unfold Fpdf.setLeftMargin; dsimp only; split <;> rfl

theorem writeAligned_err (E : Ext) (cb : Cb) (f : Fpdf) (w lh : Rat) (t a : Bytes) (he : f.err ≠ none) : (f.writeAligned E cb w lh t a).err = f.err := by
  unfold Fpdf.writeAligned
  dsimp only
  generalize (if f.t.isUTF8 = true then _ else _ : List Bytes) = ls
  have hl : ∀ (F : Fpdf → Bytes → Fpdf) (hF : ∀ g l, g.err ≠ none → (F g l).err = g.err) (ls : List Bytes) (g : Fpdf), g.err ≠ none → (ls.foldl F g).err = g.err := by
    intro F hF ls
    induction ls with
    | nil => intro g _; rfl
    | cons l ls ih =>
      intro g hg
      rw [List.foldl_cons, ih _ (by rw [hF g l hg]; exact hg), hF g l hg]
  refine hl _ (fun g l hg => ?_) ls f he
  unfold Fpdf.writeAlignedLine
  dsimp only
  split
  · rw [setLeftMargin_err, write_err _ _ _ _ _ _ _ (by rw [setLeftMargin_err]; exact hg), setLeftMargin_err]
  · split
    · rw [setLeftMargin_err, write_err _ _ _ _ _ _ _ (by rw [setLeftMargin_err]; exact hg), setLeftMargin_err]
    · exact Eq.trans (write_err E cb _ _ _ _ _ hg) rfl

theorem flows_keep (E : Ext) (cb : Cb) (f : Fpdf) (op : Op) (hop : flows op = true) : Keep f (f.exec E cb op) := by
  apply keep_of_same
  intro he
  cases op with
  | cell w h t b ln a fi l ls =>
    show (f.cellFormat E cb w h t b ln a fi l ls).err = f.err
    rw [cellFormat_of_err _ _ _ _ _ _ _ _ _ _ _ _ he]
  | multiCell w h t b a fi =>
    show (f.multiCell E cb w h t b a fi).err = f.err
    unfold Fpdf.multiCell; rw [if_pos he]
  | write h t l ls => exact write_err E cb f h t l ls he
  | writeAligned w lh t a => exact writeAligned_err E cb f w lh t a he
  | subWrite ht s sz off l ls =>
    show (f.subWrite E cb ht s sz off l ls).err = f.err
    unfold Fpdf.subWrite; rw [if_pos he]
  | image n p x y w h an fl l ls =>
    show (f.image E cb n p x y w h an fl l ls).err = f.err
    unfold Fpdf.image; rw [if_pos he]
  | _ => simp [flows] at hop

theorem exec_keep_all (E : Ext) (cb : Cb) (f : Fpdf) (op : Op) (hop : replacesError op = false) : Keep f (f.exec E cb op) := by
  rcases op_cases op with h | h | rfl | ⟨o, sz, rfl⟩ | ⟨n, rfl⟩ | rfl | ⟨b, rfl⟩ | rfl
  · exact exec_keep E cb f op h hop
  · exact flows_keep E cb f op h
  · apply keep_of_same
    intro h
    show (f.addPage E cb).err = f.err
    unfold Fpdf.addPage; rw [if_pos h]
  · apply keep_of_same
    intro h
    show (f.addPageFormat E cb o sz).err = f.err
    rw [addPageFormat_of_err E cb f o sz h]
  · show Keep f (f.setPage n)
    unfold Fpdf.setPage
    split <;> kp
  · apply keep_of_same
    intro h
    show (f.close E cb).err = f.err
    rw [close_of_err E cb f h]
  · apply keep_of_same
    intro h
    show (f.output E cb b).2.1.err = f.err
    rw [output_of_err E cb f b h]
  · simp [replacesError] at hop

end Verif.Proof
