import Verif.Model.Protect
import Verif.Spec.Security
namespace Verif.Proof
open Verif Verif.Model Verif.Spec

theorem xor_xor_cancel (a b : UInt8) : (a ^^^ b) ^^^ b = a := by
  rw [UInt8.xor_assoc, UInt8.xor_self, UInt8.xor_zero]

theorem rc4_xor_involutive (c : Rc4) (d : Bytes) : (c.xor (c.xor d).1).1 = d := by
  induction d generalizing c with
  | nil => rfl
  | cons b bs ih => simp [Rc4.xor, ih, xor_xor_cancel]

theorem rc4_xor_length (c : Rc4) (d : Bytes) : (c.xor d).1.length = d.length := by
  induction d generalizing c with
  | nil => rfl
  | cons b bs ih => simp [Rc4.xor, ih]

theorem rc4Crypt_involutive (k d : Bytes) : rc4Crypt k (rc4Crypt k d) = d := rc4_xor_involutive _ _

theorem rc4_xor_append (c : Rc4) (a b : Bytes) :
    c.xor (a ++ b) = ((c.xor a).1 ++ ((c.xor a).2.xor b).1, ((c.xor a).2.xor b).2) := by
  induction a generalizing c with
  | nil => rfl
  | cons x a ih => simp [Rc4.xor, ih]

theorem privFlag_tbl : ∀ n, n < 256 →
    let pf := 192 ||| (UInt8.ofNat n &&& (cnProtectCopy ||| cnProtectModify ||| cnProtectPrint ||| cnProtectAnnotForms))
    le32 (-(((pf ^^^ 255).toNat : Int) + 1)) = [pf, 0xff, 0xff, 0xff] ∧
    ∀ b, b ∈ [3, 4, 5, 6] →
      permBit (-(((pf ^^^ 255).toNat : Int) + 1)) b = decide (n / 2 ^ (b - 1) % 2 = 1) := by
  decide +kernel

theorem rc4_encryptionKey (md5 : Bytes → Bytes) (p : Protect) (n : Nat) (b : Bytes) :
    (p.rc4 md5 n b).1.encryptionKey = p.encryptionKey ∧ (p.rc4 md5 n b).1.rc4n = n := by
  unfold Protect.rc4
  cases h : p.cipher with
  | none => simp
  | some c =>
    by_cases hn : p.rc4n = n
    · simp [hn, h]
    · simp [hn]

theorem rc4_fresh (md5 : Bytes → Bytes) (p : Protect) (n : Nat) (b : Bytes)
    (h : p.cipher = none ∨ p.rc4n ≠ n) :
    (p.rc4 md5 n b).2 = rc4Crypt (objKey md5 p.encryptionKey n) b := by
  unfold Protect.rc4
  cases hc : p.cipher with
  | none => simp [rc4Crypt, objKey, Protect.objectKey]
  | some c =>
    have hn : p.rc4n ≠ n := by
      rcases h with h | h
      · rw [hc] at h; cases h
      · exact h
    simp [hn, rc4Crypt, objKey, Protect.objectKey]

end Verif.Proof
