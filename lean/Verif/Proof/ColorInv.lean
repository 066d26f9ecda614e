import Verif.Proof.Colors
/-
Invariants of the colour settings over histories.
-/
namespace Verif.Proof
open Verif Verif.Model Verif.Spec

/-- A page turn puts colours back: the saved ones `a`, except those parts that the header left with the same string. -/
def glued (a b : ColorSt) : ColorSt :=
  { draw := if b.draw.str ≠ a.draw.str then a.draw else b.draw, fill := if b.fill.str ≠ a.fill.str then a.fill else b.fill, text := a.text, colorFlag := a.colorFlag }

theorem addPageFormat_good {E : Ext} {cb : Cb} {J : ColorSt → Prop} (glue : ∀ a b, J a → J b → J (glued a b)) (K : LensRel E cb (fun f g => J f.c → J g.c)) (f : Fpdf) (o : Bytes) (sz : Size)
    (hf : J f.c) : J (f.addPageFormat E cb o sz).c := by
  rw [addPageFormat_eq]
  have h1 : J (front E cb f o sz).c := by
    have h1 : J (f.leavePage cb).c := K.leavePage f hf
    have h2 : ((f.leavePage cb).beginpage o sz).c = (f.leavePage cb).c := by
      by_cases he : (f.leavePage cb).err = none
      · exact (lens_parts (beginpage_lens _ o sz he)).2.1
      · rw [beginpage_of_err _ o sz he]
    have h3 : (Fpdf.pageLines ((f.leavePage cb).beginpage o sz) f.save.lw).c = ((f.leavePage cb).beginpage o sz).c := (lens_parts (pageLines_lens _ _)).2.1
    have h4 : ∀ g : Fpdf, (g.restoreFont E f.save).c = g.c := fun g => by
      unfold Fpdf.restoreFont
      split
      · have e := congrArg (fun f : Fpdf => f.c) (setFont_ink E g f.save.family f.save.style f.save.size); exact e
      · rfl
    unfold front
    rw [h4, h3, h2]; exact h1
  generalize front E cb f o sz = g at h1 ⊢
  have h2 : J (g.pageColors f.save).c := by
    rw [(lens_parts (pageColors_lens g f.save)).2.1]
    exact hf
  have h3 : J ((g.pageColors f.save).runHeader cb).c := K.runHeader _ h2
  have h4 : J (back E cb g f.save).c := by
    unfold back
    generalize (g.pageColors f.save).runHeader cb = g2 at h3 ⊢
    have e1 : (g2.restoreLine f.save).c = g2.c := (lens_parts (restoreLine_lens g2 f.save)).2.1
    have e2 : ((g2.restoreLine f.save).restoreFont E f.save).c = (g2.restoreLine f.save).c := by
      unfold Fpdf.restoreFont
      split
      · have e := congrArg (fun f : Fpdf => f.c) (setFont_ink E (g2.restoreLine f.save) f.save.family f.save.style f.save.size); exact e
      · rfl
    rw [e2, e1]; exact h3
  generalize back E cb g f.save = g3 at h4 ⊢
  split
  · exact hf
  split
  · exact h1
  split
  · exact h4
  · rw [(lens_parts (restoreColors_lens g3 f.save)).2.1]
    exact glue f.c g3.c hf h4

/-- What the colour settings satisfy at first, and what every colour call keeps, they satisfy over any history. -/
theorem reach_good {E : Ext} {J : ColorSt → Prop} (glue : ∀ a b, J a → J b → J (glued a b)) (bad : Op → Bool)
    (hq : ∀ cb (g : Fpdf) op, setter op = true → bad op = false → J g.c → J (g.exec E cb op).c) {f g : Fpdf} (h : Reach E (without bad) f g) : J f.c → J g.c := by
  refine Reach.rel (G := without bad) (fun f g => J f.c → J g.c) (fun _ => id) (fun _ _ _ a b => b ∘ a) (fun f op cb hop hcb => ?_) h
  have K : LensRel E cb (fun f g => J f.c → J g.c) := ⟨fun _ _ _ a b => b ∘ a, fun f g h => by rw [(lens_parts h).2.1]; exact id, hcb⟩
  have stays : ∀ (f : Fpdf) (op : Op), bad op = false → staysOnPage op = true → J f.c → J (f.exec E cb op).c := fun f op hb hs => by
    cases hst : setter op with
    | true => exact hq cb f op hst hb
    | false => rw [(lens_parts (exec_lens E cb f op hs hst)).2.1]; exact id
  by_cases hst : setter op = true
  · exact stays f op hop.2.2 (setter_stays hst)
  · rcases op_cases op with hs | hf | rfl | ⟨o, sz, rfl⟩ | ⟨n, rfl⟩ | rfl | ⟨b, rfl⟩ | rfl
    · exact stays f op hop.2.2 hs
    · have own : ∀ (f : Fpdf) op, helper op = true → J f.c → J (f.exec E cb op).c := fun f op hh => by
        have e : (f.exec E cb op).c = f.c := foot_get (fun f => f.c) E cb f op (helper_stays hh) (fun g => by cases op <;> first | rfl | (simp [helper] at hh))
        rw [e]; exact id
      have KF : FlowRel E cb (fun f g => J f.c → J g.c) :=
        { refl := K.refl, trans := K.trans, step := fun f g h => K.same _ _ (lens_core h.core), accept := K.cbs.accept, page := addPageFormat_good glue K
          img := fun f g info a b c d h _ => K.trans _ _ _ h (K.same _ _ (lens_out _ _)), own := own }
      exact exec_flow KF f op hf
    · show J f.c → J (f.addPage E cb).c
      unfold Fpdf.addPage
      split
      · exact id
      · exact addPageFormat_good glue K _ _ _
    · exact addPageFormat_good glue K f o sz
    · exact K.same _ _ (setPage_lens f n)
    · exact absurd rfl hop.1
    · exact absurd rfl (hop.2.1 b)
    · exact id

end Verif.Proof
