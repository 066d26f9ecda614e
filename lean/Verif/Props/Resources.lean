import Verif.Proof.Closure
import Verif.Props.Content
/-
Every resource that page contents name is defined in the file.
-/
namespace Verif.Props
open Verif Verif.Model Verif.Spec Verif.Proof

theorem key_data (E : Ext) : DataRel (fun f g => KeyId E f.r.templates → KeyId E g.r.templates) where
  trans := fun f g h a b x => b (a x)
  stp := fun f g hb x => by
    have h := congrArg (fun f : Fpdf => f.r.templates) hb
    have h : g.r.templates = f.r.templates := h
    rw [h]; exact x

theorem key_insert {E : Ext} {m : List (Bytes × Tmpl)} (h : KeyId E m) (t : Tmpl) : KeyId E (Model.insert (t.id E) t m) := by
  intro k x hx
  rw [lookup_insert] at hx
  split at hx
  · cases hx; next e => exact e.symm
  · exact h k x hx

theorem key_foldl {E : Ext} (l : List Tmpl) : ∀ {m : List (Bytes × Tmpl)}, KeyId E m → KeyId E (l.foldl (fun m (tt : Tmpl) => Model.insert (tt.id E) tt m) m) := by
  induction l with
  | nil => intro m h; exact h
  | cons a r ih => intro m h; exact ih (key_insert h a)

theorem out_templates (f : Fpdf) (s : Bytes) : (f.out s).r.templates = f.r.templates := by
  have := congrArg (fun f : Fpdf => f.r.templates) (out_ink f s)
  exact this

theorem useTemplate_key (E : Ext) (f : Fpdf) (t : Option Tmpl) (c : Rat × Rat) (s : Size) (h : KeyId E f.r.templates) : KeyId E (f.useTemplate E t c s).r.templates := by
  unfold Fpdf.useTemplate
  cases t with
  | none => dsimp only; unfold Fpdf.setErrorf; split <;> exact h
  | some t =>
    dsimp only
    split
    · unfold Fpdf.setErrorf; split <;> exact h
    · unfold Fpdf.outf
      rw [out_templates, out_templates]
      exact key_foldl t.deps (key_insert h t)

theorem key_own (E : Ext) (cb : Cb) (f : Fpdf) (op : Op) (hs : staysOnPage op = true) (h : KeyId E f.r.templates) : KeyId E (f.exec E cb op).r.templates := by
  by_cases hu : ∃ t c s, op = .useTemplate t c s
  · obtain ⟨t, c, s, rfl⟩ := hu
    exact useTemplate_key E f t c s h
  · have : (f.exec E cb op).r.templates = f.r.templates := foot_get (fun f => f.r.templates) E cb f op hs (fun f => by
      cases op <;> first | rfl | exact absurd ⟨_, _, _, rfl⟩ hu)
    rw [this]; exact h

/-- The templates of a document: those with the same identity (pointer) are the same. -/
abbrev SameTemplates (f : Fpdf) : Prop := PtrOk f.r.templates

theorem final_templates {E : Ext} {last g : Fpdf} (h : Final E last g) : g.r.templates = last.r.templates := by
  have := congrArg (fun f : Fpdf => f.r.templates) h.fixed
  exact this

/-- **C20** In every document built from `New` by a program that keeps to the discipline `tidy` (call-backs included) and does not use aliases, and written without error:
the resources of every page are those of object 2, and every name that an instruction of a page uses – graphics state, shading, layer, colour space, font, image or
template – is in the category of that dictionary in which the operator looks it up, with the number of an object of the file, which begins as the operator requires.
(`OC` as the tag of a layer section is not the name of a resource. The name `F` is used when a size is set and no font has been chosen.) -/
theorem C20_resources (E : Ext) (inflate : Bytes → Bytes) (hinf : ∀ b, inflate (E.deflate b) = b) (o u s : Bytes) (sz : Size) (f : Fpdf) (cb : Cb) (wf : Bool)
    (hf : Reach E (tidy E) (Fpdf.new o u s sz) f) (hcb : CbReach E (tidy E) cb) (ht : CbTidy cb) (hok : errOf E cb f wf = none)
    (hal : (docOf E cb f wf).m.aliasMap = []) (hptr : SameTemplates (docOf E cb f wf)) (hsize : (fileOf E cb f wf).length < 10 ^ 10) :
    ∃ version items root info kids rest dict, IsPdf (fileOf E cb f wf) [] version items root info ∧ PageTree items kids rest ∧ kids.length = (docOf E cb f wf).page ∧
      (2, Body.plain (B "<<\n" ++ dict ++ B ">>\n")) ∈ items ∧
      ∀ i, i < kids.length → ∃ size annots content, PageObject items (readIn E inflate (docOf E cb f wf)) (kids.getD i 0) size annots content ∧
        ∀ ins ∈ instrs content, ∀ nm ∈ Instr.names ins, ¬ (ins.2 = B "BDC" ∧ nm = B "OC") → ¬ (ins.2 = B "Tf" ∧ nm = B "F") →
          ∃ cat k b, categoryOf ins.2 = some cat ∧ Names dict cat nm k ∧ (k, b) ∈ items ∧ Begins ins.2 b := by
  obtain ⟨last, v, A, P, M, T, d, items, hp, hb, hcl⟩ := printed_closed hf hcb ht hok
  obtain ⟨kids, rest, k1, k2, k3, k4⟩ := pages_of_file hinf hp
  have hpdf := hp.written.pdf hsize
  rw [hb] at hpdf
  have hn : last.n = 2 := hp.op.n.trans (pf_fresh (reach_tidy hf)).n
  have hk : KeyId E last.r.templates := last_data (G := tidy E) ⟨fun _ _ _ h => ⟨h.1.1, h.1.2.1⟩, fun _ h => h⟩ (key_data E)
    (fun cb f op ho => key_own E cb f op (helper_stays ho)) (fun f cb op _ hs => key_own E cb f op hs) hf hcb hp.eq hp.page1 (by
      have : (Fpdf.new o u s sz).r.templates = [] := new_get (fun f => f.r.templates) (fun _ => rfl) o u s sz
      rw [this]; intro k t h; cases h)
  have hptr' : PtrOk last.r.templates := by rw [← final_templates hp.fin]; exact hptr
  refine ⟨v, items, _, _, kids, rest, d, hpdf, k1, k2, hp.written.mem_dict, fun i hi => ?_⟩
  obtain ⟨size, annots, h1⟩ := k4 i (by omega)
  refine ⟨size, annots, _, h1, ?_⟩
  rw [hp.subst (i + 1) (by omega) (by omega), hal, subst_nil]
  rw [List.getD_eq_getElem?_getD]
  cases hx : last.pages[i + 1]? with
  | none => intro ins hi; cases hi
  | some b =>
    obtain ⟨is, l1, l2, l3⟩ := hcl.pages (i + 1) b (by omega) hx
    show ∀ ins ∈ instrs b, _
    rw [l1.instrs]
    intro ins hi nm hnm e1 e2
    exact hp.written.found hp.state hn hk hptr' (l2 ins hi nm hnm) e1 e2

/-! ### Examples -/

theorem noTemplates_same {f : Fpdf} (h : f.r.templates = []) : SameTemplates f := by
  unfold SameTemplates PtrOk allTemplates
  rw [h]
  intro a ha; cases ha

/-- A page with text, transparency, a gradient, a spot colour and a layer. -/
def rich : Fpdf := after (Fpdf.new [] [] [] {})
  [.addLayer (B "L") true, .addSpotColor (B "Pink") 10 80 0 0, .addPage, .setFont (B "Helvetica") (B "B") 14, .text 10 10 (B "Hello"), .setAlpha (1 / 2) (B "Multiply"),
   .setFillSpotColor (B "Pink") 50, .beginLayer 0, .rect 1 1 5 5 (B "F"), .endLayer, .gradient false 1 1 5 5 (0, 0, 0) (9, 9, 9) 0 0 1 1 0] oneFont

theorem rich_reach : Reach oneFont (tidy oneFont) (Fpdf.new [] [] [] {}) rich := reach_after (tidyB_ok oneFont) _ _ _ (Reach.refl _) (by decide +kernel)

/-- The hypotheses are met by a document that uses six kinds of resources. -/
example : Reach oneFont (tidy oneFont) (Fpdf.new [] [] [] {}) rich ∧ CbReach oneFont (tidy oneFont) {} ∧ CbTidy {} ∧ errOf oneFont {} rich false = none ∧
    (docOf oneFont {} rich false).m.aliasMap = [] ∧ SameTemplates (docOf oneFont {} rich false) ∧ (fileOf oneFont {} rich false).length < 10 ^ 10 ∧
    ((instrs ((docOf oneFont {} rich false).pages.getD 1 [])).filter fun i => Instr.names i ≠ []).map (·.2) = [B "Tf", B "gs", B "cs", B "BDC", B "sh"] :=
  ⟨rich_reach, ⟨by simp, by simp, fun s => Reach.refl s⟩, cbTidy_none, by decide +kernel, by decide +kernel, noTemplates_same (by decide +kernel), by decide +kernel, by decide +kernel⟩

end Verif.Props
