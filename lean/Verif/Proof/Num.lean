import Verif.Model.Num
import Verif.Spec.Lex
import Mathlib.Algebra.Order.Field.Rat
import Mathlib.Data.Rat.Floor
import Mathlib.Tactic.Linarith
import Mathlib.Tactic.FieldSimp
import Mathlib.Tactic.Ring
import Mathlib.Tactic.Positivity
namespace Verif.Proof
open Verif Verif.Model Verif.Spec

theorem digit_toNat (d : Nat) (h : d < 10) : (UInt8.ofNat (48 + d)).toNat = 48 + d := by
  simp [UInt8.toNat_ofNat']; omega

theorem digit_isDigit (d : Nat) (h : d < 10) : isDigit (UInt8.ofNat (48 + d)) = true := by
  simp only [isDigit, Bool.and_eq_true, decide_eq_true_eq, UInt8.le_iff_toNat_le, digit_toNat d h]
  constructor
  · show 48 ≤ _; omega
  · show _ ≤ 57; omega

theorem digitsVal_append_one (a : Bytes) (c : UInt8) :
    digitsVal (a ++ [c]) = digitsVal a * 10 + (c.toNat - 48) := by
  simp [digitsVal]

theorem natDec_spec (n : Nat) :
    natDec n ≠ [] ∧ (∀ c ∈ natDec n, isDigit c = true) ∧ digitsVal (natDec n) = n := by
  induction n using Nat.strongRecOn with
  | _ n ih =>
    unfold natDec
    by_cases h : n < 10
    · simp only [h, if_true]
      refine ⟨by simp, ?_, ?_⟩
      · intro c hc; simp only [List.mem_singleton] at hc; subst hc; exact digit_isDigit n h
      · simp only [digitsVal, List.foldl_cons, List.foldl_nil, digit_toNat n h]; omega
    · simp only [h, if_false]
      have h' := ih (n / 10) (by omega)
      refine ⟨by simp, ?_, ?_⟩
      · intro c hc
        simp only [List.mem_append, List.mem_singleton] at hc
        rcases hc with hc | hc
        · exact h'.2.1 c hc
        · subst hc; exact digit_isDigit _ (by omega)
      · rw [digitsVal_append_one, h'.2.2, digit_toNat _ (by omega)]; omega

theorem padDec_length (w n : Nat) : (padDec w n).length = w := by
  induction w generalizing n with
  | zero => rfl
  | succ w ih => simp [padDec, ih]

theorem padDec_digits (w n : Nat) : ∀ c ∈ padDec w n, isDigit c = true := by
  induction w generalizing n with
  | zero => simp [padDec]
  | succ w ih =>
    intro c hc
    simp only [padDec, List.mem_append, List.mem_singleton] at hc
    rcases hc with hc | hc
    · exact ih _ c hc
    · subst hc; exact digit_isDigit _ (by omega)

theorem padDec_val (w n : Nat) : digitsVal (padDec w n) = n % 10 ^ w := by
  induction w generalizing n with
  | zero => simp [padDec, digitsVal, Nat.mod_one]
  | succ w ih =>
    rw [padDec, digitsVal_append_one, ih, digit_toNat _ (by omega)]
    rw [Nat.pow_succ, Nat.mul_comm (10 ^ w) 10, Nat.mod_mul]
    omega

theorem takeWhile_digits (a : Bytes) (h : ∀ c ∈ a, isDigit c = true) (c : UInt8) (r : Bytes)
    (hc : isDigit c = false) :
    (a ++ c :: r).takeWhile isDigit = a ∧ (a ++ c :: r).dropWhile isDigit = c :: r := by
  induction a with
  | nil => simp [hc]
  | cons x a ih =>
    have := ih (fun c hc => h c (by simp [hc]))
    have hx := h x (by simp)
    simp [hx, this]

theorem takeWhile_digits_nil (a : Bytes) (h : ∀ c ∈ a, isDigit c = true) :
    a.takeWhile isDigit = a ∧ a.dropWhile isDigit = [] := by
  induction a with
  | nil => simp
  | cons x a ih =>
    have := ih (fun c hc => h c (by simp [hc]))
    have hx := h x (by simp)
    simp [hx, this]

theorem readNat_natDec (n : Nat) (c : UInt8) (r : Bytes) (hc : isDigit c = false) :
    readNat (natDec n ++ c :: r) = some (n, c :: r) := by
  obtain ⟨h1, h2, h3⟩ := natDec_spec n
  obtain ⟨h4, h5⟩ := takeWhile_digits _ h2 c r hc
  simp [readNat, h4, h5, h1, h3]

theorem readNat_natDec_nil (n : Nat) : readNat (natDec n) = some (n, []) := by
  obtain ⟨h1, h2, h3⟩ := natDec_spec n
  obtain ⟨h4, h5⟩ := takeWhile_digits_nil _ h2
  simp [readNat, h4, h5, h1, h3]

theorem roundScaled_err (p : Nat) (q : Rat) (hq : 0 ≤ q) :
    |(roundScaled p q : Rat) - q * 10 ^ p| ≤ 1 / 2 := by
  unfold roundScaled
  set x : Rat := q * 10 ^ p with hx
  have hx0 : 0 ≤ x := by positivity
  have hf : (0 : Int) ≤ x.floor := Rat.le_floor_iff.mpr (by simpa using hx0)
  have hm : ((x.floor.toNat : Nat) : Rat) = (x.floor : Rat) := by
    have : ((x.floor.toNat : Nat) : Int) = x.floor := Int.toNat_of_nonneg hf
    exact_mod_cast this
  have h1 : (x.floor : Rat) ≤ x := Rat.floor_le x
  have h2 : x < (x.floor : Rat) + 1 := by have := Rat.lt_floor_add_one x; push_cast at this; exact this
  simp only
  split
  · rw [hm, abs_le]; constructor <;> linarith
  · split
    · push_cast; rw [hm, abs_le]; constructor <;> linarith
    · split
      · rw [hm, abs_le]; constructor <;> linarith
      · push_cast; rw [hm, abs_le]; constructor <;> linarith

theorem roundScaled_tie (p : Nat) (q : Rat) (hq : 0 ≤ q) (ht : |(roundScaled p q : Rat) - q * 10 ^ p| = 1 / 2) :
    ∃ m : Nat, roundScaled p q = 2 * m := by
  unfold roundScaled at ht ⊢
  set x : Rat := q * 10 ^ p with hx
  have hx0 : 0 ≤ x := by positivity
  have hf : (0 : Int) ≤ x.floor := Rat.le_floor_iff.mpr (by simpa using hx0)
  have hm : ((x.floor.toNat : Nat) : Rat) = (x.floor : Rat) := by
    have : ((x.floor.toNat : Nat) : Int) = x.floor := Int.toNat_of_nonneg hf
    exact_mod_cast this
  have h1 : (x.floor : Rat) ≤ x := Rat.floor_le x
  have h2 : x < (x.floor : Rat) + 1 := by have := Rat.lt_floor_add_one x; push_cast at this; exact this
  simp only at ht ⊢
  split at ht
  · rename_i hr
    rw [hm, abs_of_nonpos (by linarith)] at ht; linarith
  · split at ht
    · rename_i hr1 hr
      push_cast at ht
      rw [hm, abs_of_nonneg (by linarith)] at ht; linarith
    · rename_i hr1 hr2
      rw [if_neg hr1, if_neg hr2]
      split
      · exact ⟨x.floor.toNat / 2, by omega⟩
      · exact ⟨x.floor.toNat / 2 + 1, by omega⟩

theorem readReal_fmtF (p : Nat) (q : Rat) :
    readReal (fmtF p q) =
      some ((if q < 0 then -1 else 1) * (roundScaled p (if q < 0 then -q else q) : Rat) / 10 ^ p) := by
  set m := roundScaled p (if q < 0 then -q else q) with hm
  have hdot : isDigit 0x2E = false := by decide
  have hmin : isDigit 0x2D = false := by decide
  obtain ⟨h1, h2, h3⟩ := natDec_spec (m / 10 ^ p)
  have hp10 : (10 : Nat) ^ p ≠ 0 := by positivity
  have hdm : m = 10 ^ p * (m / 10 ^ p) + m % 10 ^ p := (Nat.div_add_mod m (10 ^ p)).symm
  -- body without the sign
  have hbody : ∀ neg : Bool,
      let body := natDec (m / 10 ^ p) ++ (if p = 0 then [] else 0x2E :: padDec p (m % 10 ^ p))
      readReal ((if neg then [0x2D] else []) ++ body) =
        some ((if neg then -1 else 1) * (m : Rat) / 10 ^ p) := by
    intro neg body
    have hhead : body.head? ≠ some 0x2D := by
      intro hh
      obtain ⟨a, l, hal⟩ := List.exists_cons_of_ne_nil h1
      have : a = 0x2D := by simpa [body, hal] using hh
      have h4 := h2 a (by simp [hal])
      rw [this, hmin] at h4; cases h4
    unfold readReal
    have e1 : ((if neg then [(0x2D : UInt8)] else []) ++ body).head? = some 0x2D ↔ neg = true := by
      cases neg <;> simp [hhead]
    have e2 : (if ((if neg then [(0x2D : UInt8)] else []) ++ body).head? = some 0x2D then
        ((if neg then [(0x2D : UInt8)] else []) ++ body).tail else
        ((if neg then [(0x2D : UInt8)] else []) ++ body)) = body := by
      cases neg <;> simp [hhead]
    simp only [e2]
    simp only [e1]
    by_cases hp : p = 0
    · subst hp
      obtain ⟨h4, h5⟩ := takeWhile_digits_nil _ h2
      have hb : body = natDec (m / 10 ^ 0) := by simp [body]
      rw [hb, h4, h5]
      simp only [h1, false_and, if_false, h3]
      cases neg <;> simp [digitsVal]
    · have hb : body = natDec (m / 10 ^ p) ++ 0x2E :: padDec p (m % 10 ^ p) := by simp [body, hp]
      obtain ⟨h4, h5⟩ := takeWhile_digits _ h2 0x2E (padDec p (m % 10 ^ p)) hdot
      rw [hb, h4, h5]
      have hall : (padDec p (m % 10 ^ p)).all isDigit = true := by
        rw [List.all_eq_true]; exact padDec_digits _ _
      simp only [hall, and_self, if_true, h1, false_and, if_false, h3, padDec_val, padDec_length, Nat.mod_mod]
      have hv : ((m / 10 ^ p : Nat) : Rat) + ((m % 10 ^ p : Nat) : Rat) / 10 ^ p = (m : Rat) / 10 ^ p := by
        have h10 : (10 : Rat) ^ p ≠ 0 := by positivity
        field_simp
        have : (m : Rat) = ((10 ^ p * (m / 10 ^ p) + m % 10 ^ p : Nat) : Rat) := by exact_mod_cast hdm
        rw [this]; push_cast; ring_nf
      rw [hv]
      cases neg <;> simp [neg_div]
  have := hbody (decide (q < 0))
  simp only [fmtF, ← hm]
  simpa using this

/-- Every byte of a formatted number is a digit, a minus sign or a period. -/
theorem fmtF_chars (p : Nat) (q : Rat) :
    ∀ c ∈ fmtF p q, isDigit c = true ∨ c = 0x2D ∨ c = 0x2E := by
  intro c hc
  simp only [fmtF, List.mem_append] at hc
  rcases hc with (hc | hc) | hc
  · split at hc
    · simp at hc; exact .inr (.inl hc)
    · simp at hc
  · exact .inl ((natDec_spec _).2.1 c hc)
  · split at hc
    · simp at hc
    · simp only [List.mem_cons] at hc
      rcases hc with hc | hc
      · exact .inr (.inr hc)
      · exact .inl (padDec_digits _ _ c hc)

theorem fmtF_ne_nil (p : Nat) (q : Rat) : fmtF p q ≠ [] := by
  have := (natDec_spec (roundScaled p (if q < 0 then -q else q) / 10 ^ p)).1
  simp [fmtF, this]

end Verif.Proof
