import Verif.Proof.Templates
/-
The order in which templates are written.
-/
namespace Verif.Proof
open Verif Verif.Model Verif.Spec

/-- What each template of the list uses is in the list before it, or in `s`. -/
def ClosedOver (s : List Nat) (l : List Tmpl) : Prop := ∀ pre x post, l = pre ++ x :: post → ∀ d ∈ x.deps, d.ptr ∈ s ∨ d ∈ pre

theorem ClosedOver.append {s : List Nat} {a b : List Tmpl} (ha : ClosedOver s a) (hb : ClosedOver s b) : ClosedOver s (a ++ b) := by
  intro pre x post h d hd
  rcases List.append_eq_append_iff.1 h with ⟨c, h1, h2⟩ | ⟨c, h1, h2⟩
  · rcases hb c x post h2 d hd with h | h
    · exact .inl h
    · rw [h1]; exact .inr (List.mem_append_right _ h)
  · cases c with
    | nil =>
      rw [List.append_nil] at h1
      rcases hb [] x post (by simpa using h2.symm) d hd with h | h
      · exact .inl h
      · cases h
    | cons y c =>
      simp only [List.cons_append, List.cons.injEq] at h2
      obtain ⟨rfl, h3⟩ := h2
      exact ha pre x c h1 d hd

theorem ClosedOver.nil (s : List Nat) : ClosedOver s [] := by
  intro pre x post h
  simp at h

theorem chainL_mem {ds : List Tmpl} {d : Tmpl} (h : d ∈ ds) : d ∈ chainDeps.chainDepsL ds := by
  induction ds with
  | nil => cases h
  | cons a r ih =>
    unfold chainDeps.chainDepsL
    rcases List.mem_cons.1 h with rfl | h
    · exact List.mem_append_left _ (chainDeps_self d)
    · exact List.mem_append_right _ (ih h)

mutual
theorem chain_closed : ∀ t : Tmpl, ClosedOver [] (chainDeps t)
  | .mk p c s b i ds => by
    unfold chainDeps
    intro pre x post h d hd
    rcases List.append_eq_append_iff.1 h with ⟨e, h1, h2⟩ | ⟨e, h1, h2⟩
    · cases e with
      | nil =>
        simp only [List.nil_append, List.cons.injEq] at h2
        obtain ⟨rfl, -⟩ := h2
        rw [h1, List.append_nil]
        exact .inr (chainL_mem hd)
      | cons y e => simp at h2
    · cases e with
      | nil =>
        simp only [List.nil_append, List.cons.injEq] at h2
        rw [List.append_nil] at h1
        obtain ⟨rfl, -⟩ := h2
        rw [← h1]
        exact .inr (chainL_mem hd)
      | cons y e =>
        simp only [List.cons_append, List.cons.injEq] at h2
        obtain ⟨rfl, h3⟩ := h2
        exact chainL_closed ds pre x e h1 d hd
theorem chainL_closed : ∀ ds : List Tmpl, ClosedOver [] (chainDeps.chainDepsL ds)
  | [] => by unfold chainDeps.chainDepsL; exact .nil []
  | d :: r => by unfold chainDeps.chainDepsL; exact (chain_closed d).append (chainL_closed r)
end

theorem flat_closed (ks : List Bytes) (m : List (Bytes × Tmpl)) : ClosedOver [] (ks.flatMap fun k => match lookup k m with | some t => chainDeps t | none => []) := by
  induction ks with
  | nil => exact .nil []
  | cons a r ih =>
    rw [List.flatMap_cons]
    refine ClosedOver.append ?_ ih
    split
    · exact chain_closed _
    · exact .nil []

/-- Removing duplicates keeps the order. -/
theorem dedup_order (l : List Tmpl) : ∀ s : List Tmpl, (s.map Tmpl.ptr).Nodup → (∀ pre x post, s = pre ++ x :: post → ∀ d ∈ x.deps, d.ptr ∈ pre.map Tmpl.ptr) → ClosedOver (s.map Tmpl.ptr) l →
    ((dedupTmpl s l).map Tmpl.ptr).Nodup ∧ ∀ pre x post, dedupTmpl s l = pre ++ x :: post → ∀ d ∈ x.deps, d.ptr ∈ pre.map Tmpl.ptr := by
  induction l with
  | nil => intro s h1 h2 _; exact ⟨h1, h2⟩
  | cons a r ih =>
    intro s h1 h2 h3
    unfold dedupTmpl
    by_cases ha : a.ptr ∈ s.map Tmpl.ptr
    · rw [if_pos (by
        obtain ⟨x, hx, he⟩ := List.mem_map.1 ha
        exact List.any_eq_true.2 ⟨x, hx, by simpa using he⟩)]
      refine ih s h1 h2 ?_
      intro pre x post h d hd
      rcases h3 (a :: pre) x post (by rw [h]; rfl) d hd with h | h
      · exact .inl h
      · rcases List.mem_cons.1 h with rfl | h
        · exact .inl ha
        · exact .inr h
    · rw [if_neg (by
        intro h
        obtain ⟨x, hx, he⟩ := List.any_eq_true.1 h
        exact ha (List.mem_map.2 ⟨x, hx, by simpa using he⟩))]
      refine ih (s ++ [a]) ?_ ?_ ?_
      · rw [List.map_append, List.nodup_append]
        refine ⟨h1, by simp, ?_⟩
        intro x hx y hy
        simp only [List.map_cons, List.map_nil, List.mem_singleton] at hy
        subst hy
        rintro rfl
        exact ha hx
      · intro pre x post h d hd
        rcases List.append_eq_append_iff.1 h with ⟨e, g1, g2⟩ | ⟨e, g1, g2⟩
        · cases e with
          | nil =>
            simp only [List.nil_append, List.cons.injEq] at g2
            obtain ⟨rfl, -⟩ := g2
            rw [g1, List.append_nil]
            rcases h3 [] a r rfl d hd with h | h
            · exact h
            · cases h
          | cons y e => simp at g2
        · cases e with
          | nil =>
            simp only [List.nil_append, List.cons.injEq] at g2
            rw [List.append_nil] at g1
            obtain ⟨rfl, -⟩ := g2
            rw [← g1]
            rcases h3 [] x r rfl d hd with h | h
            · exact h
            · cases h
          | cons y e =>
            simp only [List.cons_append, List.cons.injEq] at g2
            obtain ⟨rfl, g3⟩ := g2
            exact h2 pre x e g1 d hd
      · intro pre x post h d hd
        rw [List.map_append]
        rcases h3 (a :: pre) x post (by rw [h]; rfl) d hd with h | h
        · exact .inl (List.mem_append_left _ h)
        · rcases List.mem_cons.1 h with rfl | h
          · exact .inl (List.mem_append_right _ (by simp))
          · exact .inr h

/-- The order of the templates of a document. -/
theorem sort_order (ks : List Bytes) (m : List (Bytes × Tmpl)) :
    ((sortTemplates ks m).map Tmpl.ptr).Nodup ∧ ∀ pre x post, sortTemplates ks m = pre ++ x :: post → ∀ d ∈ x.deps, d.ptr ∈ pre.map Tmpl.ptr :=
  dedup_order _ [] (by simp) (by simp) (flat_closed ks m)

end Verif.Proof
