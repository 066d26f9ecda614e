import Verif.Spec.Alias
import Verif.Model.Escape
import Mathlib.Tactic.ByContra
import Mathlib.Order.Nat
/-
`strings.Replace` replaces every occurrence; when replacements do not depend on their order.
-/
namespace Verif.Proof
open Verif Verif.Model Verif.Spec

theorem _root_.Verif.Spec.At.len {k s : Bytes} {i : Nat} (h : At k s i) : i + k.length ≤ s.length := by
  obtain ⟨p, q, rfl, rfl⟩ := h
  simp

theorem _root_.Verif.Spec.At.right {k s : Bytes} {i : Nat} (h : At k s i) (w : Bytes) : At k (s ++ w) i := by
  obtain ⟨p, q, rfl, rfl⟩ := h
  exact ⟨p, q ++ w, by simp, rfl⟩
theorem _root_.Verif.Spec.At.left {k s : Bytes} {i : Nat} (h : At k s i) (w : Bytes) : At k (w ++ s) (w.length + i) := by
  obtain ⟨p, q, rfl, rfl⟩ := h
  exact ⟨w ++ p, q, by simp, by simp⟩

/-- An occurrence that lies in the left or in the right part. -/
theorem _root_.Verif.Spec.At.in_left {k s w : Bytes} {i : Nat} (h : At k (s ++ w) i) (hi : i + k.length ≤ s.length) : At k s i := by
  obtain ⟨p, q, e, rfl⟩ := h
  have h1 : (p ++ k) <+: s := by
    have : (p ++ k) <+: s ++ w := ⟨q, e.symm⟩
    exact List.prefix_of_prefix_length_le this (List.prefix_append s w) (by simp; omega)
  obtain ⟨q', h'⟩ := h1
  exact ⟨p, q', h'.symm, rfl⟩
theorem _root_.Verif.Spec.At.in_right {k s w : Bytes} {i : Nat} (h : At k (w ++ s) i) (hi : w.length ≤ i) : At k s (i - w.length) := by
  obtain ⟨p, q, e, rfl⟩ := h
  have h1 : w <+: p := by
    have h1 : w <+: w ++ s := List.prefix_append w s
    have h2 : p <+: w ++ s := ⟨k ++ q, by rw [e, List.append_assoc]⟩
    exact List.prefix_of_prefix_length_le h1 h2 hi
  obtain ⟨p', rfl⟩ := h1
  refine ⟨p', q, ?_, by simp⟩
  simp only [List.append_assoc] at e
  have := List.append_cancel_left e
  simp only [List.append_assoc]
  exact this

theorem at_zero {k s : Bytes} : At k s 0 ↔ k <+: s := by
  constructor
  · rintro ⟨p, q, rfl, hp⟩
    have : p = [] := List.length_eq_zero_iff.mp hp
    subst this
    exact ⟨q, by simp⟩
  · rintro ⟨q, rfl⟩
    exact ⟨[], q, by simp, rfl⟩

theorem at_cons {k s : Bytes} {c : UInt8} {i : Nat} : At k (c :: s) (i + 1) ↔ At k s i := by
  constructor
  · intro h
    have := Spec.At.in_right (w := [c]) (s := s) (by simpa using h) (by simp)
    simpa using this
  · intro h
    have := h.left [c]
    simpa [Nat.add_comm] using this

/-! ### `replaceAll` -/

theorem replaceGo_skip (k r : Bytes) : ∀ (n : Nat) (s : Bytes), n ≤ s.length → replaceGo k r n s = replaceGo k r 0 (s.drop n) := by
  intro n
  induction n with
  | zero => intro s _; rfl
  | succ n ih =>
    intro s hs
    cases s with
    | nil => simp at hs
    | cons c s => rw [replaceGo, List.drop_succ_cons]; exact ih s (by simpa using hs)

theorem replaceAll_match {k r rest : Bytes} (hk : k ≠ []) : replaceAll k r (k ++ rest) = r ++ replaceAll k r rest := by
  unfold replaceAll
  rw [if_neg hk, if_neg hk]
  obtain ⟨c, k', rfl⟩ := List.exists_cons_of_ne_nil hk
  rw [List.cons_append, replaceGo, if_pos (by simp)]
  rw [replaceGo_skip _ _ _ _ (by simp)]
  simp

theorem replaceAll_miss {k r s : Bytes} {c : UInt8} (hk : k ≠ []) (h : ¬ k <+: c :: s) : replaceAll k r (c :: s) = c :: replaceAll k r s := by
  unfold replaceAll
  rw [if_neg hk, if_neg hk, replaceGo, if_neg (by simpa using h)]

theorem replaceAll_nil (k r : Bytes) : replaceAll k r [] = [] := by
  unfold replaceAll
  split
  · rfl
  · rw [replaceGo]

/-- Text in which no occurrence starts is kept. -/
theorem replaceAll_pre {k r : Bytes} (hk : k ≠ []) (pre : Bytes) : ∀ rest, (∀ i, At k (pre ++ rest) i → pre.length ≤ i) → replaceAll k r (pre ++ rest) = pre ++ replaceAll k r rest := by
  induction pre with
  | nil => intro rest _; rfl
  | cons c pre ih =>
    intro rest h
    rw [List.cons_append, replaceAll_miss hk, ih rest (fun i hi => ?_), List.cons_append]
    · have := h (i + 1) (at_cons.mpr hi)
      simpa using this
    · intro hp
      have := h 0 (at_zero.mpr hp)
      simp at this

theorem replaceAll_none {k r s : Bytes} (hk : k ≠ []) (h : ∀ i, ¬ At k s i) : replaceAll k r s = s := by
  have := replaceAll_pre hk (r := r) s [] (fun i hi => absurd (by simpa using hi) (h i))
  simpa [replaceAll_nil] using this

/-- The first occurrence. -/
theorem first_at (k s : Bytes) : (∀ i, ¬ At k s i) ∨ ∃ pre rest, s = pre ++ k ++ rest ∧ ∀ i, At k s i → pre.length ≤ i := by
  by_cases h : ∃ i, At k s i
  · right
    classical
    obtain ⟨p, q, e, hp⟩ := Nat.find_spec h
    exact ⟨p, q, e, fun i hi => by rw [hp]; exact Nat.find_min' h hi⟩
  · left
    exact fun i hi => h ⟨i, hi⟩

theorem replaceAll_next {k r pre rest : Bytes} (hk : k ≠ []) (h : ∀ i, At k (pre ++ k ++ rest) i → pre.length ≤ i) :
    replaceAll k r (pre ++ k ++ rest) = pre ++ r ++ replaceAll k r rest := by
  rw [List.append_assoc] at h ⊢
  rw [replaceAll_pre hk pre _ h, replaceAll_match hk, List.append_assoc]

theorem replaceAll_spec {k : Bytes} (hk : k ≠ []) (r : Bytes) : ∀ (n : Nat) (s : Bytes), s.length ≤ n → Replaced k r s (replaceAll k r s) := by
  intro n
  induction n with
  | zero =>
    intro s hs
    have : s = [] := List.length_eq_zero_iff.mp (Nat.le_zero.mp hs)
    subst this
    rw [replaceAll_nil]
    refine .done _ (fun i hi => ?_)
    have h1 := hi.len
    have h2 := List.length_pos_iff.mpr hk
    have h3 : i + k.length ≤ 0 := h1
    omega
  | succ n ih =>
    intro s hs
    rcases first_at k s with h | ⟨pre, rest, rfl, h⟩
    · rw [replaceAll_none hk h]; exact .done _ h
    · rw [replaceAll_next hk h]
      refine .next pre rest _ h (ih rest ?_)
      have := List.length_pos_iff.mpr hk
      simp at hs
      omega

/-- The specification determines the result. -/
theorem replaced_eq {k r s t : Bytes} (hk : k ≠ []) (h : Replaced k r s t) : t = replaceAll k r s := by
  induction h with
  | done s h => exact (replaceAll_none hk h).symm
  | next pre rest t h _ ih => rw [replaceAll_next hk h, ih]

/-! ### Order -/

theorem apart_pre {k w pre rest : Bytes} (hk : k ≠ []) (h : Apart k w) (hp : ∀ i, At k (pre ++ w) i → pre.length ≤ i) :
    ∀ i, At k (pre ++ w ++ rest) i → (pre ++ w).length ≤ i := by
  intro i hi
  rcases h pre rest i hi with h1 | h1
  · have := hp i (Spec.At.in_left (w := rest) hi (by simp; omega))
    have := List.length_pos_iff.mpr hk
    omega
  · simpa using h1

/-- After replacement nothing is left to replace. -/
theorem replaced_gone {k r : Bytes} (hk : k ≠ []) (h : Apart k r) (s : Bytes) : ∀ i, ¬ At k (replaceAll k r s) i := by
  have key : ∀ n s, s.length ≤ n → ∀ i, ¬ At k (replaceAll k r s) i := by
    intro n
    induction n with
    | zero =>
      intro s hs i hi
      have : s = [] := List.length_eq_zero_iff.mp (Nat.le_zero.mp hs)
      subst this
      rw [replaceAll_nil] at hi
      have h1 := hi.len
      have h2 := List.length_pos_iff.mpr hk
      have h3 : i + k.length ≤ 0 := h1
      omega
    | succ n ih =>
      intro s hs
      rcases first_at k s with h1 | ⟨pre, rest, rfl, h1⟩
      · rw [replaceAll_none hk h1]; exact h1
      · rw [replaceAll_next hk h1]
        have hl := List.length_pos_iff.mpr hk
        have ih' := ih rest (by simp at hs; omega)
        intro i hi
        rcases h pre _ i hi with h2 | h2
        · rw [List.append_assoc] at hi
          have h3 := hi.in_left h2
          have h4 := h1 i (by rw [List.append_assoc]; exact h3.right _)
          omega
        · have := Spec.At.in_right (w := pre ++ r) hi (by simpa using h2)
          exact ih' _ this
  exact key s.length s (Nat.le_refl _)

/-- Two replacements that keep apart may be made in either order. -/
theorem replace_comm {k1 r1 k2 r2 : Bytes} (hk1 : k1 ≠ []) (hk2 : k2 ≠ []) (h12 : Apart k1 k2) (h21 : Apart k2 k1) (hr1 : Apart k2 r1) (hr2 : Apart k1 r2) (s : Bytes) :
    replaceAll k1 r1 (replaceAll k2 r2 s) = replaceAll k2 r2 (replaceAll k1 r1 s) := by
  have key : ∀ n s, s.length ≤ n → replaceAll k1 r1 (replaceAll k2 r2 s) = replaceAll k2 r2 (replaceAll k1 r1 s) := by
    -- one side: the first occurrence is one of `a`
    have side : ∀ {a ra b rb : Bytes}, a ≠ [] → b ≠ [] → Apart a b → Apart b a → Apart b ra → ∀ pre rest : Bytes,
        (∀ i, At a (pre ++ a ++ rest) i → pre.length ≤ i) → (∀ i, At b (pre ++ a ++ rest) i → pre.length ≤ i) →
        replaceAll a ra (replaceAll b rb rest) = replaceAll b rb (replaceAll a ra rest) →
        replaceAll a ra (replaceAll b rb (pre ++ a ++ rest)) = replaceAll b rb (replaceAll a ra (pre ++ a ++ rest)) := by
      intro a ra b rb ha hb hab hba hbr pre rest h1 h2 ih
      rw [replaceAll_next ha h1]
      have e1 : replaceAll b rb (pre ++ a ++ rest) = pre ++ a ++ replaceAll b rb rest := by
        refine replaceAll_pre hb (pre ++ a) rest (fun i hi => ?_)
        refine apart_pre hb hba (fun j hj => h2 j (hj.right _)) i hi
      have e2 : replaceAll b rb (pre ++ ra ++ replaceAll a ra rest) = pre ++ ra ++ replaceAll b rb (replaceAll a ra rest) := by
        refine replaceAll_pre hb (pre ++ ra) _ (fun i hi => ?_)
        rcases hbr pre _ i hi with h | h
        · rw [List.append_assoc] at hi
          have h3 := hi.in_left h
          have := h2 i (by rw [List.append_assoc]; exact h3.right _)
          have := List.length_pos_iff.mpr hb
          omega
        · simpa using h
      rw [e1, e2]
      have h3 : ∀ i, At a (pre ++ a ++ replaceAll b rb rest) i → pre.length ≤ i := by
        intro i hi
        by_contra hlt
        have h4 := hi.in_left (by simp; omega)
        exact hlt (h1 i (h4.right _))
      rw [replaceAll_next ha h3, ih]
    intro n
    induction n with
    | zero =>
      intro s hs
      have : s = [] := List.length_eq_zero_iff.mp (Nat.le_zero.mp hs)
      subst this
      simp [replaceAll_nil]
    | succ n ih =>
      intro s hs
      have l1 := List.length_pos_iff.mpr hk1
      have l2 := List.length_pos_iff.mpr hk2
      rcases first_at k1 s with a1 | ⟨p1, q1, e1, f1⟩
      · rcases first_at k2 s with a2 | ⟨p2, q2, rfl, f2⟩
        · rw [replaceAll_none hk1 a1, replaceAll_none hk2 a2, replaceAll_none hk1 a1]
        · refine (side hk2 hk1 h21 h12 hr2 p2 q2 f2 (fun i hi => absurd hi (a1 i)) ?_).symm
          exact (ih q2 (by simp at hs; omega)).symm
      · rcases first_at k2 s with a2 | ⟨p2, q2, e2, f2⟩
        · subst e1
          exact side hk1 hk2 h12 h21 hr1 p1 q1 f1 (fun i hi => absurd hi (a2 i)) (ih q1 (by simp at hs; omega))
        · by_cases hle : p1.length ≤ p2.length
          · subst e1
            exact side hk1 hk2 h12 h21 hr1 p1 q1 f1 (fun i hi => Nat.le_trans hle (f2 i hi)) (ih q1 (by simp at hs; omega))
          · subst e2
            exact (side hk2 hk1 h21 h12 hr2 p2 q2 f2 (fun i hi => Nat.le_trans (by omega) (f1 i hi)) (ih q2 (by simp at hs; omega)).symm).symm
  exact key s.length s (Nat.le_refl _)

end Verif.Proof
