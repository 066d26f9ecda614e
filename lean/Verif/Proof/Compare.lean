import Verif.Model.Compare
namespace Verif.Proof
open Verif Verif.Model

/-- Number of leading bytes actually compared, for a common length `n`. -/
def comparedLen (n : Nat) : Nat := if n % 16 = 1 then n - 1 else n

theorem slice_eq_iff (a b : Bytes) (s e : Nat) (hs : s ≤ e)
    (h : a.take s = b.take s) : cmpSlice a s e = cmpSlice b s e ↔ a.take e = b.take e := by
  have key : ∀ l : Bytes, l.take e = l.take s ++ cmpSlice l s e := by
    intro l
    unfold cmpSlice
    have : l.take s = (l.take e).take s := by rw [List.take_take]; congr 1; omega
    rw [this, List.take_append_drop]
  constructor
  · intro h'
    rw [key a, key b, h, h']
  · intro h'
    unfold cmpSlice; rw [h']

theorem compareLoop_true (a b : Bytes) (n fuel pos : Nat) : compareLoop a b n fuel pos true = true := by
  induction fuel generalizing pos with
  | zero => rfl
  | succ f ih =>
    unfold compareLoop
    split
    · simp only [ite_self]; exact ih _
    · rfl

theorem compareLoop_spec (a b : Bytes) (n : Nat) (ha : n ≤ a.length) (hb : n ≤ b.length)
    (fuel pos : Nat) (hf : n ≤ fuel + pos) (hp : pos ≤ n) (hm : pos % 16 = 0 ∨ pos = n)
    (heq : a.take pos = b.take pos) (hn1 : pos = n → n % 16 ≠ 1) :
    compareLoop a b n fuel pos false = false ↔ a.take (comparedLen n) = b.take (comparedLen n) := by
  induction fuel generalizing pos with
  | zero =>
    have hpn : pos = n := by omega
    unfold compareLoop comparedLen
    simp only [hn1 hpn, if_false, true_iff]
    rw [← hpn]; exact heq
  | succ f ih =>
    unfold compareLoop
    by_cases hlt : pos < n - 1
    · simp only [hlt, if_true]
      generalize hpe : (if pos + 16 > n then n else pos + 16) = pe
      have hpe1 : pos < pe ∧ pe ≤ n := by split at hpe <;> omega
      have hsl := slice_eq_iff a b pos pe (by omega) heq
      by_cases hc : cmpSlice a pos pe = cmpSlice b pos pe
      · simp only [checkBytes, hc, decide_true, not_true_eq_false, if_false]
        refine ih pe (by omega) (by omega) ?_ (hsl.mp hc) ?_
        · split at hpe <;> omega
        · intro hpn
          split at hpe <;> omega
      · simp only [checkBytes, hc, decide_false, Bool.false_eq_true, not_false_eq_true, if_true]
        rw [compareLoop_true]
        simp only [Bool.true_eq_false, false_iff]
        intro h
        apply hc
        rw [hsl]
        have hle : pe ≤ comparedLen n := by
          unfold comparedLen
          split <;> (try split at hpe) <;> omega
        have := congrArg (List.take pe) h
        rwa [List.take_take, List.take_take, Nat.min_eq_left hle] at this
    · simp only [hlt, if_false, true_iff]
      have : comparedLen n = pos := by
        unfold comparedLen
        split <;> omega
      rw [this]; exact heq

end Verif.Proof
