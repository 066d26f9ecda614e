import Verif.Proof.Compare
/- C35: PDF comparison. -/
namespace Verif.Props
open Verif Verif.Model

/-- **C35** Exact characterisation of when `CompareBytes` returns nil: with `n` the smaller length, only the
first `n` bytes are looked at — and only the first `n-1` if `n ≡ 1 (mod 16)`. -/
theorem C35_compare_exact (a b : Bytes) :
    compareBytes a b = false ↔
      let n := min a.length b.length
      let m := if n % 16 = 1 then n - 1 else n
      a.take m = b.take m := by
  have hn : (if a.length > b.length then b.length else a.length) = min a.length b.length := by
    split <;> omega
  simp only [compareBytes, hn]
  by_cases h1 : min a.length b.length = 1
  · rw [h1]; simp [compareLoop]
  · by_cases h0 : min a.length b.length = 0
    · rw [h0]; simp [compareLoop]
    · have := Proof.compareLoop_spec a b (min a.length b.length) (by omega) (by omega)
        (min a.length b.length) 0 (by omega) (by omega) (by simp) (by simp) (by omega)
      rw [this]; rfl

/-- **C35** (one direction in full): equal documents never produce an error. -/
theorem C35_equal_accepted (a : Bytes) : compareBytes a a = false := by
  rw [C35_compare_exact]

/-- **C35** : for slices of equal length not ≡ 1 mod 16, nil is returned exactly when they are
equal. Missing: other lengths, for which the claim is false (`C35_length_false`, `C35_last_byte_false`). -/
theorem C35_compare_usual (a b : Bytes) (hl : a.length = b.length) (h16 : a.length % 16 ≠ 1) :
    compareBytes a b = false ↔ a = b := by
  rw [C35_compare_exact]
  simp only [← hl, Nat.min_self, h16, if_false]
  rw [List.take_of_length_le (Nat.le_refl _), List.take_of_length_le (by omega)]

example : ([1, 2, 3] : Bytes).length = ([1, 2, 4] : Bytes).length ∧ ([1, 2, 3] : Bytes).length % 16 ≠ 1 := by decide

/-- **C35** refuted: a document and a proper extension of it compare equal. -/
theorem C35_length_false : ∃ a b : Bytes, a ≠ b ∧ compareBytes a b = false :=
  ⟨[1, 2, 3], [1, 2, 3, 4, 5], by decide, by decide⟩

/-- **C35** refuted even for equal lengths: the last byte of a document of length 17 is not compared. -/
theorem C35_last_byte_false : ∃ a b : Bytes, a.length = b.length ∧ a ≠ b ∧ compareBytes a b = false :=
  ⟨List.replicate 16 0 ++ [1], List.replicate 16 0 ++ [2], by decide, by decide, by decide⟩

end Verif.Props
