import Verif.Proof.Restore
/-
Colour settings over histories.
-/
namespace Verif.Proof
open Verif Verif.Model Verif.Spec

/-- A part of the colours that is put back by a page turn. -/
structure Part {α : Type} (q : ColorSt → α) : Prop where
  glue : ∀ (a b c : ColorSt) (x y : Bool) (fl : Bool), q a = q c → q b = q c →
    q { draw := if x then a.draw else b.draw, fill := if y then a.fill else b.fill, text := a.text, colorFlag := fl } = q c

theorem front_c {E : Ext} {cb : Cb} {α : Type} {q : ColorSt → α} (K : LensRel E cb (fun f g => q g.c = q f.c)) (f : Fpdf) (o : Bytes) (sz : Size) :
    q (front E cb f o sz).c = q f.c := by
  have h1 : q (f.leavePage cb).c = q f.c := K.leavePage f
  have h2 : ((f.leavePage cb).beginpage o sz).c = (f.leavePage cb).c := by
    by_cases he : (f.leavePage cb).err = none
    · exact (lens_parts (beginpage_lens _ o sz he)).2.1
    · rw [beginpage_of_err _ o sz he]
  have h3 : (Fpdf.pageLines ((f.leavePage cb).beginpage o sz) f.save.lw).c = ((f.leavePage cb).beginpage o sz).c := (lens_parts (pageLines_lens _ _)).2.1
  have h4 : ∀ g : Fpdf, (g.restoreFont E f.save).c = g.c := fun g => by
    unfold Fpdf.restoreFont
    split
    · have e := congrArg (fun f : Fpdf => f.c) (setFont_ink E g f.save.family f.save.style f.save.size); exact e
    · rfl
  unfold front
  rw [h4, h3, h2, h1]

theorem addPageFormat_c {E : Ext} {cb : Cb} {α : Type} {q : ColorSt → α} (P : Part q) (K : LensRel E cb (fun f g => q g.c = q f.c)) (f : Fpdf) (o : Bytes) (sz : Size) :
    q (f.addPageFormat E cb o sz).c = q f.c := by
  rw [addPageFormat_eq]
  have h1 := front_c K f o sz
  generalize front E cb f o sz = g at h1 ⊢
  have h2 : q (g.pageColors f.save).c = q f.c := by
    rw [(lens_parts (pageColors_lens g f.save)).2.1]
    exact P.glue f.c f.c f.c true true f.c.colorFlag rfl rfl
  have h3 : q ((g.pageColors f.save).runHeader cb).c = q f.c := (K.runHeader _).trans h2
  have h4 : q (back E cb g f.save).c = q f.c := by
    unfold back
    generalize (g.pageColors f.save).runHeader cb = g2 at h3 ⊢
    have e1 : (g2.restoreLine f.save).c = g2.c := (lens_parts (restoreLine_lens g2 f.save)).2.1
    have e2 : ((g2.restoreLine f.save).restoreFont E f.save).c = (g2.restoreLine f.save).c := by
      unfold Fpdf.restoreFont
      split
      · have e := congrArg (fun f : Fpdf => f.c) (setFont_ink E (g2.restoreLine f.save) f.save.family f.save.style f.save.size); exact e
      · rfl
    rw [e2, e1, h3]
  generalize back E cb g f.save = g3 at h4 ⊢
  split
  · rfl
  split
  · exact h1
  split
  · exact h4
  · rw [(lens_parts (restoreColors_lens g3 f.save)).2.1]
    have := P.glue f.c g3.c f.c (decide (g3.c.draw.str ≠ f.c.draw.str)) (decide (g3.c.fill.str ≠ f.c.fill.str)) f.c.colorFlag rfl h4
    simp only [decide_eq_true_eq] at this
    exact this

theorem setter_stays {op : Op} (h : setter op = true) : staysOnPage op = true := by
  cases op <;> first | rfl | (simp [setter] at h)

/-- Programs that do not close the document and do not make certain calls. -/
def without (bad : Op → Bool) : Guard := { op := fun _ _ op => op ≠ .close ∧ (∀ b, op ≠ .output b) ∧ bad op = false }

/-- A part of the colours that only certain calls change keeps its value over any history without them. -/
theorem reach_part {E : Ext} {α : Type} {q : ColorSt → α} (P : Part q) (bad : Op → Bool) (hq : ∀ cb (g : Fpdf) op, setter op = true → bad op = false → q (g.exec E cb op).c = q g.c)
    {f g : Fpdf} (h : Reach E (without bad) f g) : q g.c = q f.c := by
  refine Reach.rel (G := without bad) (fun f g => q g.c = q f.c) (fun _ => rfl) (fun _ _ _ a b => b.trans a) (fun f op cb hop hcb => ?_) h
  have K : LensRel E cb (fun f g => q g.c = q f.c) := ⟨fun _ _ _ a b => b.trans a, fun f g h => by rw [(lens_parts h).2.1], hcb⟩
  have stays : ∀ (f : Fpdf) (op : Op), bad op = false → staysOnPage op = true → q (f.exec E cb op).c = q f.c := fun f op hb hs => by
    cases hst : setter op with
    | true => exact hq cb f op hst hb
    | false => rw [(lens_parts (exec_lens E cb f op hs hst)).2.1]
  by_cases hst : setter op = true
  · exact stays f op hop.2.2 (setter_stays hst)
  · rcases op_cases op with hs | hf | rfl | ⟨o, sz, rfl⟩ | ⟨n, rfl⟩ | rfl | ⟨b, rfl⟩ | rfl
    · exact stays f op hop.2.2 hs
    · have own : ∀ (f : Fpdf) op, helper op = true → q (f.exec E cb op).c = q f.c := fun f op hh => by
        have e : (f.exec E cb op).c = f.c := foot_get (fun f => f.c) E cb f op (helper_stays hh) (fun g => by cases op <;> first | rfl | (simp [helper] at hh))
        rw [e]
      have KF : FlowRel E cb (fun f g => q g.c = q f.c) :=
        { refl := K.refl, trans := K.trans, step := fun f g h => K.same _ _ (lens_core h.core), accept := K.cbs.accept, page := addPageFormat_c P K
          img := fun f g info a b c d h _ => K.trans _ _ _ h (K.same _ _ (lens_out _ _)), own := own }
      exact exec_flow KF f op hf
    · show q (f.addPage E cb).c = q f.c
      unfold Fpdf.addPage
      split
      · rfl
      · exact addPageFormat_c P K _ _ _
    · exact addPageFormat_c P K f o sz
    · exact K.same _ _ (setPage_lens f n)
    · exact absurd rfl hop.1
    · exact absurd rfl (hop.2.1 b)
    · rfl

end Verif.Proof
