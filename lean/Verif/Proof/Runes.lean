import Verif.Model.Runes
import Verif.Spec.Unicode
/-
Go's reading of UTF-8 text gives back the characters that were encoded.
-/
namespace Verif.Proof
open Verif Verif.Model Verif.Spec

theorem byte_toNat (n : Nat) (h : n < 256) : (UInt8.ofNat n).toNat = n := UInt8.toNat_ofNat_of_lt' h

theorem runes_skip (k : Nat) (a r : Bytes) (h : a.length = k) : runesGo k (a ++ r) = runesGo 0 r := by
  induction a generalizing k with
  | nil => subst h; rfl
  | cons c a ih =>
    subst h
    rw [List.cons_append, List.length_cons, runesGo, ih a.length rfl]

theorem le_byte (a : UInt8) (n : Nat) (h : n < 256) : a ≤ UInt8.ofNat n ↔ a.toNat ≤ n := by
  rw [UInt8.le_iff_toNat_le, byte_toNat n h]
theorem byte_le (a : UInt8) (n : Nat) (h : n < 256) : UInt8.ofNat n ≤ a ↔ n ≤ a.toNat := by
  rw [UInt8.le_iff_toNat_le, byte_toNat n h]
theorem byte_lt (a : UInt8) (n : Nat) (h : n < 256) : UInt8.ofNat n < a ↔ n < a.toNat := by
  rw [UInt8.lt_iff_toNat_lt, byte_toNat n h]
theorem byte_eq (a : UInt8) (n : Nat) (h : n < 256) : UInt8.ofNat n = a ↔ n = a.toNat := by
  rw [← UInt8.toNat_inj, byte_toNat n h]

theorem cont_byte (n : Nat) (h : n < 64) : isCont (UInt8.ofNat (0x80 + n)) = true := by
  unfold isCont
  rw [Bool.and_eq_true, decide_eq_true_iff, decide_eq_true_iff, le_byte _ _ (by omega), byte_le _ _ (by omega)]
  exact ⟨by show 128 ≤ _; omega, by show _ ≤ 191; omega⟩

theorem cont_val (n : Nat) (h : n < 64) : (UInt8.ofNat (0x80 + n)).toNat - 0x80 = n := by
  rw [byte_toNat _ (by omega)]; omega

theorem decode2 (n : Nat) (h1 : 0xC2 ≤ n) (h2 : n ≤ 0xDF) (c1 : UInt8) (hc : isCont c1 = true) (r : Bytes) :
    decodeRune (UInt8.ofNat n) (c1 :: r) = ((n - 0xC0) * 64 + (c1.toNat - 0x80), 1) := by
  unfold decodeRune
  dsimp only
  rw [if_neg (by rw [byte_lt _ _ (by omega)]; show ¬ n < 128; omega), if_pos (by rw [le_byte _ _ (by omega), byte_le _ _ (by omega)]; exact ⟨h1, h2⟩), if_pos hc, byte_toNat _ (by omega)]

theorem decode3 (n : Nat) (h1 : 0xE0 ≤ n) (h2 : n ≤ 0xEF) (c1 c2 : UInt8) (hc1 : isCont c1 = true) (hc2 : isCont c2 = true) (h3 : n = 0xE0 → 0xA0 ≤ c1.toNat) (h4 : n = 0xED → c1.toNat ≤ 0x9F) (r : Bytes) :
    decodeRune (UInt8.ofNat n) (c1 :: c2 :: r) = ((n - 0xE0) * 4096 + (c1.toNat - 0x80) * 64 + (c2.toNat - 0x80), 2) := by
  unfold decodeRune
  dsimp only
  rw [if_neg (by rw [byte_lt _ _ (by omega)]; show ¬ n < 128; omega), if_neg (by rw [le_byte _ _ (by omega), byte_le _ _ (by omega)]; show ¬ (194 ≤ n ∧ n ≤ 223); omega),
    if_pos (by rw [le_byte _ _ (by omega), byte_le _ _ (by omega)]; exact ⟨h1, h2⟩), byte_toNat _ (by omega), if_pos]
  refine ⟨hc1, hc2, fun e => ?_, fun e => ?_⟩
  · rw [byte_eq _ _ (by omega)] at e
    rw [UInt8.le_iff_toNat_le]; exact h3 e
  · rw [byte_eq _ _ (by omega)] at e
    rw [UInt8.le_iff_toNat_le]; exact h4 e

theorem decode4 (n : Nat) (h1 : 0xF0 ≤ n) (h2 : n ≤ 0xF4) (c1 c2 c3 : UInt8) (hc1 : isCont c1 = true) (hc2 : isCont c2 = true) (hc3 : isCont c3 = true) (h3 : n = 0xF0 → 0x90 ≤ c1.toNat)
    (h4 : n = 0xF4 → c1.toNat ≤ 0x8F) (r : Bytes) :
    decodeRune (UInt8.ofNat n) (c1 :: c2 :: c3 :: r) = ((n - 0xF0) * 262144 + (c1.toNat - 0x80) * 4096 + (c2.toNat - 0x80) * 64 + (c3.toNat - 0x80), 3) := by
  unfold decodeRune
  dsimp only
  rw [if_neg (by rw [byte_lt _ _ (by omega)]; show ¬ n < 128; omega), if_neg (by rw [le_byte _ _ (by omega), byte_le _ _ (by omega)]; show ¬ (194 ≤ n ∧ n ≤ 223); omega),
    if_neg (by rw [le_byte _ _ (by omega), byte_le _ _ (by omega)]; show ¬ (224 ≤ n ∧ n ≤ 239); omega),
    if_pos (by rw [le_byte _ _ (by omega), byte_le _ _ (by omega)]; exact ⟨h1, h2⟩), byte_toNat _ (by omega), if_pos]
  refine ⟨hc1, hc2, hc3, fun e => ?_, fun e => ?_⟩
  · rw [byte_eq _ _ (by omega)] at e
    rw [UInt8.le_iff_toNat_le]; exact h3 e
  · rw [byte_eq _ _ (by omega)] at e
    rw [UInt8.le_iff_toNat_le]; exact h4 e

theorem decode_one (cp : Nat) (h : isScalar cp) (r : Bytes) :
    ∃ c a, utf8Enc1 cp = c :: a ∧ decodeRune c (a ++ r) = (cp, a.length) := by
  unfold isScalar at h
  unfold utf8Enc1
  by_cases h1 : cp < 0x80
  · rw [if_pos h1]
    refine ⟨_, _, rfl, ?_⟩
    unfold decodeRune
    dsimp only
    rw [if_pos (by rw [byte_lt _ _ (by omega)]; exact h1), byte_toNat _ (by omega)]
    rfl
  rw [if_neg h1]
  have c0 := cont_byte (cp % 64) (by omega)
  have v0 := cont_val (cp % 64) (by omega)
  by_cases h2 : cp < 0x800
  · rw [if_pos h2]
    refine ⟨_, _, rfl, ?_⟩
    rw [List.cons_append, List.nil_append, decode2 _ (by omega) (by omega) _ c0, v0]
    simp only [Prod.mk.injEq, List.length_cons, List.length_nil, and_true]
    omega
  rw [if_neg h2]
  have c1 := cont_byte (cp / 64 % 64) (by omega)
  have v1 := cont_val (cp / 64 % 64) (by omega)
  have w1 := byte_toNat (0x80 + cp / 64 % 64) (by omega)
  by_cases h3 : cp < 0x10000
  · rw [if_pos h3]
    refine ⟨_, _, rfl, ?_⟩
    rw [List.cons_append, List.cons_append, List.nil_append, decode3 _ (by omega) (by omega) _ _ c1 c0 (by rw [w1]; omega) (by rw [w1]; omega), v0, v1]
    simp only [Prod.mk.injEq, List.length_cons, List.length_nil, and_true]
    omega
  rw [if_neg h3]
  have c2 := cont_byte (cp / 4096 % 64) (by omega)
  have v2 := cont_val (cp / 4096 % 64) (by omega)
  have w2 := byte_toNat (0x80 + cp / 4096 % 64) (by omega)
  refine ⟨_, _, rfl, ?_⟩
  rw [List.cons_append, List.cons_append, List.cons_append, List.nil_append, decode4 _ (by omega) (by omega) _ _ _ c2 c1 c0 (by rw [w2]; omega) (by rw [w2]; omega), v0, v1, v2]
  simp only [Prod.mk.injEq, List.length_cons, List.length_nil, and_true]
  omega

/-- Go reads back the characters of UTF-8 text. -/
theorem runes_utf8 (cps : List Nat) (h : ∀ cp ∈ cps, isScalar cp) : runes (utf8Enc cps) = cps := by
  unfold runes utf8Enc
  induction cps with
  | nil => rfl
  | cons cp cps ih =>
    rw [List.flatMap_cons]
    obtain ⟨c, a, h1, h2⟩ := decode_one cp (h cp (by simp)) (cps.flatMap utf8Enc1)
    rw [h1, List.cons_append, runesGo, h2, runes_skip _ _ _ rfl, ih fun x hx => h x (by simp [hx])]

end Verif.Proof
