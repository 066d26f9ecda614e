import Verif.Proof.Errors
/-
C09: errors latch. C10 (first part): nothing is output once an error is recorded.
-/
namespace Verif.Props
open Verif Verif.Model Verif.Spec Verif.Proof

/-- Programs that never call `ClearError` (neither directly nor in a call-back). -/
def noClear : Guard := { op := fun _ _ op => op ≠ .clearError }

/-- **C09** Once an error is recorded, every program that does not call `ClearError` ends with an error recorded. -/
theorem C09_error_latches (E : Ext) (f g : Fpdf) (h : Reach E noClear f g) (he : f.err ≠ none) : g.err ≠ none :=
  Reach.rel Latch (fun _ h => h) (fun _ _ _ a b h => b (a h)) (fun f op cb hop hcb => exec_latch E cb hcb f op hop) h he

/-- Programs that do not use the calls found to replace an error: `ClearError`, `SetPageBox`, `TransformScale`, `TransformSkew`, `TransformEnd`,
`RegisterImage` of a file and `AddFont` of a file. -/
def noReplace : Guard := { op := fun _ _ op => replacesError op = false }

/-- **C09** … and outside of six calls, the error finally reported is the first one. -/
theorem C09_first_error_kept (E : Ext) (f g : Fpdf) (e : String) (h : Reach E noReplace f g) (he : f.err = some e) : g.err = some e :=
  Reach.rel Keep Keep.refl (fun _ _ _ a b => a.trans b) (fun f op cb hop _ => exec_keep_all E cb f op hop) h e he

/-- **C09** `SetError` and `SetErrorf` never replace an error, and record one when there is none. -/
theorem C09_setError (f : Fpdf) (e : String) : (f.setErrorf e).err = some (f.err.getD e) := by
  unfold Fpdf.setErrorf
  cases h : f.err with
  | none => rfl
  | some x => simp [h]

/-- The first error does not always win: each of the six calls replaces it (full property refuted). -/
theorem C09_replaced_false : ∀ op ∈ [Op.setPageBox (B "x") {}, .transformScale 0 1 0 0, .transformSkew 90 0 0 0, .transformEnd,
    .registerImageFile (B "missing.png") false none, .addFontFile (B "f") [] false none {}],
    ∃ f : Fpdf, ∃ e, f.err = some e ∧ (f.exec {} {} op).err ≠ some e := by
  intro op hop
  refine ⟨{ err := some "first" }, "first", rfl, ?_⟩
  simp only [List.mem_cons, List.not_mem_nil, or_false] at hop
  rcases hop with rfl | rfl | rfl | rfl | rfl | rfl <;> decide +kernel

/-- **C10** With an error recorded, `Output` writes nothing, reports that error and leaves the document as it is. -/
theorem C10_no_output_after_error (E : Ext) (cb : Cb) (f : Fpdf) (wf : Bool) (he : f.err ≠ none) : f.output E cb wf = ([], f, f.err) :=
  output_of_err E cb f wf he

/-- A program that meets the hypotheses: text is drawn after an error, then the document is output. -/
example : ∃ f g : Fpdf, f.err ≠ none ∧ Reach {} noClear f g ∧ (g.output {} {} false).1 = [] := by
  let f : Fpdf := ((Fpdf.new [] [] [] {}).addPage {} {}).setErrorf "e"
  have hf : f.err ≠ none := by decide +kernel
  refine ⟨f, f.exec {} {} (.text 10 10 (B "hello")), hf, ?_, ?_⟩
  · exact Reach.step _ _ (Reach.refl f) (by simp [noClear]) (by simp) (by simp) (fun s => Reach.refl s)
  · rw [output_of_err]
    exact C09_error_latches {} f _ (Reach.step _ _ (Reach.refl f) (by simp [noClear]) (by simp) (by simp) (fun s => Reach.refl s)) hf

end Verif.Props
