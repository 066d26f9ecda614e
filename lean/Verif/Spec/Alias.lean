import Verif.Spec.Unicode
/-
Replacing the occurrences of one string in another.
-/
namespace Verif.Spec

/-- `k` occurs in `s` at place `i`. -/
def At (k s : Bytes) (i : Nat) : Prop := ∃ p q, s = p ++ k ++ q ∧ p.length = i

/-- `t` is `s` with `r` instead of every `k`, from left to right. -/
inductive Replaced (k r : Bytes) : Bytes → Bytes → Prop
  | done (s : Bytes) (h : ∀ i, ¬ At k s i) : Replaced k r s s
  | next (pre rest t : Bytes) (h : ∀ i, At k (pre ++ k ++ rest) i → pre.length ≤ i) (ht : Replaced k r rest t) : Replaced k r (pre ++ k ++ rest) (pre ++ r ++ t)

/-- Wherever `w` occurs, no occurrence of `k` shares a byte with it. -/
def Apart (k w : Bytes) : Prop := ∀ p q i, At k (p ++ w ++ q) i → i + k.length ≤ p.length ∨ p.length + w.length ≤ i

/-- Text of the basic multilingual plane in UTF-16, high byte first. -/
def utf16Enc (cps : List Nat) : Bytes := cps.flatMap fun cp => [UInt8.ofNat (cp / 256), UInt8.ofNat (cp % 256)]
example : utf16Dec (utf16Enc [0x41, 0x20AC]) = some [0x41, 0x20AC] := by decide

/-- ASCII text in UTF-16. -/
def wide (s : Bytes) : Bytes := s.flatMap fun c => [0, c]

/-- The pairs are replaced one after the other. -/
inductive ReplacedAll : List (Bytes × Bytes) → Bytes → Bytes → Prop
  | nil (s : Bytes) : ReplacedAll [] s s
  | cons (k r : Bytes) (l : List (Bytes × Bytes)) (s m t : Bytes) (h : Replaced k r s m) (ht : ReplacedAll l m t) : ReplacedAll ((k, r) :: l) s t

/-- A name in brackets `x`, `y`, in ASCII letters. -/
def Bracketed (x y : UInt8) (k : Bytes) : Prop := ∃ body, k = x :: body ++ [y] ∧ x ∉ body ∧ y ∉ body ∧ ∀ c ∈ k, c ≠ 0 ∧ c < 128

/-- A text without the brackets that has some character that is in none of the names `ks`, in ASCII letters. -/
def Harmless (x y : UInt8) (ks : List Bytes) (r : Bytes) : Prop := x ∉ r ∧ y ∉ r ∧ (∃ c ∈ r, ∀ k ∈ ks, c ∉ k) ∧ ∀ c ∈ r, c ≠ 0 ∧ c < 128

end Verif.Spec
