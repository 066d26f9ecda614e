import Verif.Proof.Attrs
import Verif.Spec.Marks
import Verif.Spec.Text
/-
Marks made by instructions that do not change the attributes.
-/
namespace Verif.Proof
open Verif Verif.Model Verif.Spec

theorem marks_append (a b : List Instr) : ∀ s, marks s (a ++ b) = marks s a ++ marks (attrRun s a) b := by
  induction a with
  | nil => intro s; rfl
  | cons i a ih =>
    intro s
    have e : ∀ t, marks s (i :: t) = if i.2 ∈ marking then (i.2, s.1) :: marks (attrStep s i) t else marks (attrStep s i) t := fun t => rfl
    show marks s (i :: (a ++ b)) = marks s (i :: a) ++ marks (attrRun (attrStep s i) a) b
    rw [e, e]
    split
    · rw [ih]; rfl
    · rw [ih]

theorem plain_step {i : Instr} (h : plainOp i.2 = true) (s : Attr × List Attr) : attrStep s i = s := by
  exact (neutral_of_plain (is := [i]) (by simpa using h)).attr s

theorem marks_plain {is : List Instr} (h : ∀ i ∈ is, plainOp i.2 = true) : ∀ s, marks s is = (is.filter (fun i => i.2 ∈ marking)).map (fun i => (i.2, s.1)) ∧ attrRun s is = s := by
  induction is with
  | nil => intro s; exact ⟨rfl, rfl⟩
  | cons i r ih =>
    intro s
    have h1 := plain_step (h i (by simp)) s
    obtain ⟨h2, h3⟩ := ih (fun j hj => h j (by simp [hj])) s
    refine ⟨?_, ?_⟩
    · unfold marks
      rw [h1, h2]
      by_cases hm : i.2 ∈ marking
      · rw [if_pos hm, List.filter_cons_of_pos (by simpa using hm)]; rfl
      · rw [if_neg hm, List.filter_cons_of_neg (by simpa using hm)]
    · show attrRun (attrStep s i) r = s
      rw [h1, h3]

end Verif.Proof
