import Verif.Model.Html
import Verif.Spec.Html
import Verif.Proof.Escape
namespace Verif.Proof
open Verif Verif.Model Verif.Spec

theorem splitAtByte_some {c : UInt8} {s a b : Bytes} (h : splitAtByte c s = some (a, b)) :
    s = a ++ c :: b ∧ c ∉ a := by
  induction s generalizing a b with
  | nil => simp [splitAtByte] at h
  | cons x s ih =>
    simp only [splitAtByte] at h
    split at h
    · rename_i hx; simp at h; obtain ⟨h1, h2⟩ := h; subst h1 h2 hx; simp
    · rename_i hx
      cases hs : splitAtByte c s with
      | none => simp [hs] at h
      | some p =>
        obtain ⟨p, q⟩ := p
        simp [hs] at h
        obtain ⟨h1, h2⟩ := h
        subst h1 h2
        obtain ⟨i1, i2⟩ := ih hs
        refine ⟨by simp [i1], ?_⟩
        simp only [List.mem_cons, not_or]
        exact ⟨fun e => hx e.symm, i2⟩

theorem splitAtByte_none {c : UInt8} {s : Bytes} (h : splitAtByte c s = none) : c ∉ s := by
  induction s with
  | nil => simp
  | cons x s ih =>
    simp only [splitAtByte] at h
    split at h
    · cases h
    · rename_i hx
      simp only [Option.map_eq_none_iff] at h
      simp only [List.mem_cons, not_or]
      exact ⟨fun e => hx e.symm, ih h⟩

theorem findTag_some {s pre inner rest : Bytes} (h : findTag s = some (pre, inner, rest)) :
    s = pre ++ 0x3C :: inner ++ 0x3E :: rest ∧ (0x3C : UInt8) ∉ pre ∧ (0x3E : UInt8) ∉ inner := by
  unfold findTag at h
  cases h1 : splitAtByte 0x3C s with
  | none => simp [h1] at h
  | some p =>
    obtain ⟨a, r⟩ := p
    cases h2 : splitAtByte 0x3E r with
    | none => simp [h1, h2] at h
    | some q =>
      obtain ⟨b, t⟩ := q
      simp [h1, h2] at h
      obtain ⟨e1, e2, e3⟩ := h
      subst e1 e2 e3
      obtain ⟨p1, p2⟩ := splitAtByte_some h1
      obtain ⟨q1, q2⟩ := splitAtByte_some h2
      refine ⟨?_, p2, q2⟩
      rw [p1, q1]; simp

theorem findTag_none {s : Bytes} (h : findTag s = none) : tailOK s := by
  intro a b hs hb
  unfold findTag at h
  cases h1 : splitAtByte 0x3C s with
  | none => have := splitAtByte_none h1; rw [hs] at this; simp at this
  | some p =>
    obtain ⟨p, r⟩ := p
    obtain ⟨p1, p2⟩ := splitAtByte_some h1
    cases h2 : splitAtByte 0x3E r with
    | some q => simp [h1, h2] at h
    | none =>
      have hr := splitAtByte_none h2
      -- the first `<` is at or before the one in the decomposition
      apply hr
      rw [p1] at hs
      rcases List.append_eq_append_iff.mp hs with ⟨l, e1, e2⟩ | ⟨l, e1, e2⟩
      · cases l with
        | nil => simp at e2; rw [e2]; exact hb
        | cons x l =>
          simp at e2
          rw [e2.2]; simp [hb]
      · cases l with
        | nil => simp at e2; rw [← e2]; exact hb
        | cons x l =>
          simp at e2
          exfalso; apply p2; rw [e1, ← e2.1]; simp

theorem htmlNormalise_eq (s : Bytes) : replaceAll [13] [] (replaceAll [10] [32] s) = htmlNormalise s := by
  rw [replaceAll_single, replaceAll_single]
  induction s with
  | nil => rfl
  | cons c s ih =>
    simp only [List.flatMap_cons, List.flatMap_append, ih]
    by_cases h13 : c = 13
    · subst h13; simp [htmlNormalise]
    · by_cases h10 : c = 10
      · subst h10; simp [htmlNormalise]
      · simp [htmlNormalise, h13, h10]

end Verif.Proof
