import Verif.Proof.Doc
/-
The settings a document keeps between calls: font, colours, line styles; what happens to them over a history of calls.
-/
namespace Verif.Proof
open Verif Verif.Model Verif.Spec

/-- Font, colour and line settings, and the scale factor. -/
def lens (f : Fpdf) : TextSt × ColorSt × LineSt × Rat :=
  ({ f.t with ws := 0, usedRunes := [], isRTL := false, userUnderlineThickness := 0, fontFiles := [], diffs := [] }, f.c, f.line, f.k)

/-- The calls that are about these settings. -/
def setter : Op → Bool
  | .setFont .. | .setFontStyle .. | .setFontSize .. | .setFontUnitSize .. | .addFontFile .. | .addFont .. | .addUTF8Font ..
  | .setDrawColor .. | .setFillColor .. | .setTextColor .. | .setDrawSpotColor .. | .setFillSpotColor .. | .setTextSpotColor ..
  | .setLineWidth .. | .setLineCapStyle .. | .setLineJoinStyle .. | .setDashPattern .. => true
  | _ => false

theorem lens_ink {g h : Fpdf} (e : ink g = ink h) : lens g = lens h := by have h' := congrArg lens e; exact h'
theorem lens_lay {g h : Fpdf} (e : inkLay g = inkLay h) : lens g = lens h := by have h' := congrArg lens e; exact h'
theorem lens_core {g h : Fpdf} (e : core g = core h) : lens g = lens h := by have h' := congrArg lens e; exact h'
theorem lens_out (f : Fpdf) (s : Bytes) : lens (f.out s) = lens f := lens_ink (out_ink f s)

theorem exec_lens (E : Ext) (cb : Cb) (f : Fpdf) (op : Op) (hs : staysOnPage op = true) (hn : setter op = false) : lens (f.exec E cb op) = lens f := by
  refine foot_get lens E cb f op hs (fun g => ?_)
  cases op <;> first | rfl | (simp [setter] at hn)

theorem setPage_lens (f : Fpdf) (n : Int) : lens (f.setPage n) = lens f := by unfold Fpdf.setPage; split <;> rfl

/-- A relation on the settings that the header and footer functions respect. -/
structure LensRel (E : Ext) (cb : Cb) (R : Fpdf → Fpdf → Prop) : Prop where
  trans : ∀ f g h, R f g → R g h → R f h
  same : ∀ f g, lens g = lens f → R f g
  cbs : Cb.Rel (fun _ => True) R cb

section
variable {E : Ext} {cb : Cb} {R : Fpdf → Fpdf → Prop} (K : LensRel E cb R)
include K

theorem LensRel.refl (f : Fpdf) : R f f := K.same f f rfl

theorem LensRel.runFooter (last : Bool) (f : Fpdf) : R f (f.runFooter cb last) := by
  unfold Fpdf.runFooter
  dsimp only
  cases hf : cb.footer with
  | none => exact K.same _ _ rfl
  | some fn =>
    dsimp only
    have h1 := K.cbs.footer fn hf last { f with inFooter := true, log := f.log ++ [CbEvent.footer f.page last] } trivial
    refine K.trans _ _ _ (K.trans _ _ _ (K.same f { f with inFooter := true, log := f.log ++ [CbEvent.footer f.page last] } rfl) h1) (K.same _ _ rfl)

theorem LensRel.runHeader (f : Fpdf) : R f (f.runHeader cb) := by
  unfold Fpdf.runHeader
  cases hf : cb.header with
  | none => exact K.refl f
  | some fn =>
    dsimp only
    have h1 := K.cbs.header fn hf { f with inHeader := true, log := f.log ++ [CbEvent.header f.page] } trivial
    have h2 := K.trans _ _ _ (K.same f { f with inHeader := true, log := f.log ++ [CbEvent.header f.page] } rfl) h1
    split
    · exact K.trans _ _ _ h2 (K.same _ _ rfl)
    · exact K.trans _ _ _ h2 (K.same _ _ rfl)

theorem LensRel.endpage (f : Fpdf) : R f f.endpage :=
  K.same _ _ (Eq.trans (b := lens f.endLayer) rfl (lens_lay (endLayer_ink f)))

theorem LensRel.leavePage (f : Fpdf) : R f (f.leavePage cb) := by
  unfold Fpdf.leavePage
  dsimp only
  generalize hg : (if f.page ≠ f.pages.length - 1 then { f with page := f.pages.length - 1 } else f) = g
  have h1 : R f g := K.same _ _ (by rw [← hg]; split <;> rfl)
  generalize hg2 : (if g.state = 0 then { g with state := 1 } else g) = g2
  have h2 : R g g2 := K.same _ _ (by rw [← hg2]; split <;> rfl)
  have h3 := K.trans _ _ _ h1 h2
  split
  · exact K.trans _ _ _ (K.trans _ _ _ h3 (K.runFooter false g2)) (K.endpage _)
  · exact h3

/-- One call, given what new pages and the calls about the settings do. -/
theorem LensRel.exec (hpage : ∀ f o sz, R f (f.addPageFormat E cb o sz)) (hset : ∀ f op, setter op = true → R f (f.exec E cb op)) (f : Fpdf) (op : Op)
    (h1 : op ≠ .close) (h2 : ∀ b, op ≠ .output b) : R f (f.exec E cb op) := by
  have stays : ∀ f op, staysOnPage op = true → R f (f.exec E cb op) := fun f op hs => by
    cases hb : setter op with
    | true => exact hset f op hb
    | false => exact K.same _ _ (exec_lens E cb f op hs hb)
  rcases op_cases op with hs | hf | rfl | ⟨o, sz, rfl⟩ | ⟨n, rfl⟩ | rfl | ⟨b, rfl⟩ | rfl
  · exact stays f op hs
  · have KF : FlowRel E cb R :=
      { refl := K.refl, trans := K.trans, step := fun f g h => K.same _ _ (lens_core h.core), accept := K.cbs.accept, page := hpage
        img := fun f g info a b c d h _ => K.trans _ _ _ h (K.same _ _ (lens_out _ _)), own := fun f op h => stays f op (helper_stays h) }
    exact exec_flow KF f op hf
  · show R f (f.addPage E cb)
    unfold Fpdf.addPage
    split
    · exact K.refl f
    · exact hpage _ _ _
  · exact hpage f o sz
  · exact K.same _ _ (setPage_lens f n)
  · exact absurd rfl h1
  · exact absurd rfl (h2 b)
  · exact K.same _ _ rfl
end

end Verif.Proof
