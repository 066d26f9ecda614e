import Verif.Proof.Num
/-
C54: numbers are written exactly to the declared precision.
-/
namespace Verif.Props
open Verif Verif.Model Verif.Spec

/-- **C54** Every `%.pf` number the library writes is a PDF real number without exponent whose value is
within half a unit in the last place of the value given. -/
theorem C54_fmtF_reads_close (p : Nat) (q : Rat) :
    ∃ r, readReal (fmtF p q) = some r ∧ |r - q| ≤ 1 / (2 * 10 ^ p) := by
  refine ⟨_, Proof.readReal_fmtF p q, ?_⟩
  have h10 : (0 : Rat) < 10 ^ p := by positivity
  have key : ∀ a : Rat, 0 ≤ a → |(roundScaled p a : Rat) / 10 ^ p - a| ≤ 1 / (2 * 10 ^ p) := by
    intro a ha
    have h := Proof.roundScaled_err p a ha
    have e : (roundScaled p a : Rat) / 10 ^ p - a = ((roundScaled p a : Rat) - a * 10 ^ p) / 10 ^ p := by
      field_simp
    rw [e, abs_div, abs_of_pos h10, div_le_iff₀ h10]
    calc _ ≤ (1 : Rat) / 2 := h
      _ = _ := by field_simp
  by_cases hq : q < 0
  · simp only [hq, if_true]
    have := key (-q) (by linarith)
    rw [abs_sub_comm] at this
    have e : (-1 * (roundScaled p (-q) : Rat) / 10 ^ p - q) = (-q - (roundScaled p (-q) : Rat) / 10 ^ p) := by ring
    rw [e]; exact this
  · simp only [hq, if_false, one_mul]
    exact key q (by linarith)

/-- **C54** When the value lies exactly between two numbers of the declared precision, the one with the even
last digit is written (as Go's formatting does). -/
theorem C54_fmtF_ties (p : Nat) (q r : Rat) (h : readReal (fmtF p q) = some r) (ht : |r - q| = 1 / (2 * 10 ^ p)) :
    ∃ m : Int, r * 10 ^ p = 2 * m := by
  rw [Proof.readReal_fmtF p q] at h
  simp only [Option.some.injEq] at h
  have h10 : (0 : Rat) < 10 ^ p := by positivity
  have key : ∀ a : Rat, 0 ≤ a → |(roundScaled p a : Rat) / 10 ^ p - a| = 1 / (2 * 10 ^ p) → ∃ m : Nat, roundScaled p a = 2 * m := by
    intro a ha hh
    have e : (roundScaled p a : Rat) / 10 ^ p - a = ((roundScaled p a : Rat) - a * 10 ^ p) / 10 ^ p := by field_simp
    rw [e, abs_div, abs_of_pos h10, div_eq_iff h10.ne'] at hh
    refine Proof.roundScaled_tie p a ha ?_
    rw [hh]; field_simp
  by_cases hq : q < 0
  · simp only [hq, if_true] at h
    have ht' : |(roundScaled p (-q) : Rat) / 10 ^ p - -q| = 1 / (2 * 10 ^ p) := by
      rw [← ht, ← h, abs_sub_comm]; congr 1; ring
    obtain ⟨m, hm⟩ := key (-q) (by linarith) ht'
    refine ⟨-m, ?_⟩
    rw [← h, hm]; push_cast; field_simp
  · simp only [hq, if_false, one_mul] at h
    obtain ⟨m, hm⟩ := key q (by linarith) (by rw [h]; exact ht)
    refine ⟨m, ?_⟩
    rw [← h, hm]; push_cast; field_simp

example : readReal (fmtF 2 (1 / 8)) = some (12 / 100) ∧ readReal (fmtF 2 (3 / 8)) = some (38 / 100) := by
  decide +kernel

/-- **C54** The text of a number consists of digits, `-` and `.` only, is not empty, so it is a single
token for a PDF reader. -/
theorem C54_fmtF_plain (p : Nat) (q : Rat) :
    fmtF p q ≠ [] ∧ ∀ c ∈ fmtF p q, isRegular c = true := by
  refine ⟨Proof.fmtF_ne_nil p q, fun c hc => ?_⟩
  rcases Proof.fmtF_chars p q c hc with h | h | h
  · simp only [isDigit, Bool.and_eq_true, decide_eq_true_eq, UInt8.le_iff_toNat_le] at h
    have h1 : 48 ≤ c.toNat := h.1
    have h2 : c.toNat ≤ 57 := h.2
    have hne : ∀ d : UInt8, (d.toNat < 48 ∨ 57 < d.toNat) → c ≠ d := by
      intro d hd e; subst e; omega
    simp only [isRegular, isWs, isDelim]
    simp [hne]
  · subst h; decide
  · subst h; decide

/-- **C54** Integers (`%d`: object numbers, lengths, offsets) are read back exactly, whatever non-digit
follows. -/
theorem C54_natDec_reads (n : Nat) (c : UInt8) (rest : Bytes) (hc : isDigit c = false) :
    readNat (natDec n ++ c :: rest) = some (n, c :: rest) :=
  Proof.readNat_natDec n c rest hc

/-- **C54** Zero padded integers (`%010d`: cross-reference offsets) are read back exactly, and have exactly
the field width when the value fits. -/
theorem C54_zeroPad_reads (w n : Nat) (hw : 0 < w) (c : UInt8) (rest : Bytes) (hc : isDigit c = false) :
    readNat (zeroPad w n ++ c :: rest) = some (n, c :: rest) ∧
    (n < 10 ^ w → (zeroPad w n).length = w) := by
  unfold zeroPad
  by_cases h : n < 10 ^ w
  · simp only [h, if_true, forall_const]
    refine ⟨?_, Proof.padDec_length w n⟩
    obtain ⟨h4, h5⟩ := Proof.takeWhile_digits _ (Proof.padDec_digits w n) c rest hc
    have hne : padDec w n ≠ [] := by
      intro he; have := Proof.padDec_length w n; rw [he] at this; simp at this; omega
    simp [readNat, h4, h5, hne, Proof.padDec_val, Nat.mod_eq_of_lt h]
  · simp only [h, if_false, false_implies, and_true]
    exact Proof.readNat_natDec n c rest hc

-- Tests.
example : fmtF 2 (-5/3) = B "-1.67" := by decide +kernel
example : fmtF 2 (-1/1000) = B "-0.00" := by decide +kernel
example : fmtF 3 (1/16) = B "0.062" := by decide +kernel
example : isDigit 32 = false ∧ zeroPad 10 1234 = B "0000001234" := by decide +kernel

end Verif.Props
