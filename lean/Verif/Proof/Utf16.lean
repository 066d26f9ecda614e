import Verif.Model.Utf16
import Verif.Spec.Unicode
namespace Verif.Proof
open Verif Verif.Model Verif.Spec

theorem u8_tbl : ∀ n, n < 256 →
    ((UInt8.ofNat n &&& 0x0F) <<< 4).toNat = n % 16 * 16 ∧
    ((UInt8.ofNat n &&& 0x3C) >>> 2).toNat = n / 4 % 16 ∧
    ((UInt8.ofNat n &&& 0x03) <<< 6).toNat = n % 4 * 64 ∧
    (UInt8.ofNat n &&& 0x3F).toNat = n % 64 ∧
    ((UInt8.ofNat n &&& 0x1C) >>> 2).toNat = n / 4 % 8 := by
  decide +kernel

theorem ofNat_le_iff (a b : Nat) (ha : a < 256) (hb : b < 256) : (UInt8.ofNat a ≤ UInt8.ofNat b) ↔ a ≤ b := by
  simp [UInt8.le_iff_toNat_le, Nat.mod_eq_of_lt ha, Nat.mod_eq_of_lt hb]

/-- One step: the encoding of a BMP code point becomes its two big-endian bytes. -/
theorem utf16_step (cp : Nat) (h : cp < 0x10000) (rest : Bytes) :
    utf8toutf16Loop (utf8Enc1 cp ++ rest) =
      (utf8toutf16Loop rest).map fun t => UInt8.ofNat (cp / 256) :: UInt8.ofNat (cp % 256) :: t := by
  have e224 : (224 : UInt8) = UInt8.ofNat 224 := by decide
  have e192 : (192 : UInt8) = UInt8.ofNat 192 := by decide
  unfold utf8Enc1
  by_cases h1 : cp < 0x80
  · simp only [h1, if_true, List.cons_append, List.nil_append]
    conv => lhs; unfold utf8toutf16Loop
    have a1 : ¬ 224 ≤ UInt8.ofNat cp := by rw [e224, ofNat_le_iff _ _ (by omega) (by omega)]; omega
    have a2 : ¬ 192 ≤ UInt8.ofNat cp := by rw [e192, ofNat_le_iff _ _ (by omega) (by omega)]; omega
    simp only [a1, a2, if_false]
    have b1 : cp / 256 = 0 := by omega
    have b2 : cp % 256 = cp := by omega
    rw [b1, b2]; rfl
  · by_cases h2 : cp < 0x800
    · simp only [h1, h2, if_true, if_false, List.cons_append, List.nil_append]
      conv => lhs; unfold utf8toutf16Loop
      have a1 : ¬ 224 ≤ UInt8.ofNat (0xC0 + cp / 64) := by rw [e224, ofNat_le_iff _ _ (by omega) (by omega)]; omega
      have a2 : 192 ≤ UInt8.ofNat (0xC0 + cp / 64) := by rw [e192, ofNat_le_iff _ _ (by omega) (by omega)]; omega
      simp only [a1, a2, if_false, if_true]
      obtain ⟨-, -, p3, -, p5⟩ := u8_tbl (0xC0 + cp / 64) (by omega)
      obtain ⟨-, -, -, q4, -⟩ := u8_tbl (0x80 + cp % 64) (by omega)
      congr 1; funext t
      congr 1
      · rw [← UInt8.toNat_inj, p5, UInt8.toNat_ofNat']; omega
      · congr 1
        rw [← UInt8.toNat_inj, UInt8.toNat_add, p3, q4, UInt8.toNat_ofNat']; omega
    · simp only [h1, h2, h, if_true, if_false, List.cons_append, List.nil_append]
      conv => lhs; unfold utf8toutf16Loop
      have a1 : 224 ≤ UInt8.ofNat (0xE0 + cp / 4096) := by rw [e224, ofNat_le_iff _ _ (by omega) (by omega)]; omega
      simp only [a1, if_true]
      obtain ⟨p1, -, -, -, -⟩ := u8_tbl (0xE0 + cp / 4096) (by omega)
      obtain ⟨-, q2, q3, -, -⟩ := u8_tbl (0x80 + cp / 64 % 64) (by omega)
      obtain ⟨-, -, -, r4, -⟩ := u8_tbl (0x80 + cp % 64) (by omega)
      congr 1; funext t
      congr 1
      · rw [← UInt8.toNat_inj, UInt8.toNat_add, p1, q2, UInt8.toNat_ofNat']; omega
      · congr 1
        rw [← UInt8.toNat_inj, UInt8.toNat_add, q3, r4, UInt8.toNat_ofNat']; omega

theorem utf16_loop (cps : List Nat) (h : ∀ cp ∈ cps, cp < 0x10000) :
    utf8toutf16Loop (utf8Enc cps) =
      some (cps.flatMap fun cp => [UInt8.ofNat (cp / 256), UInt8.ofNat (cp % 256)]) := by
  induction cps with
  | nil => rfl
  | cons cp cps ih =>
    have : utf8Enc (cp :: cps) = utf8Enc1 cp ++ utf8Enc cps := by simp [utf8Enc]
    rw [this, utf16_step cp (h cp (by simp)), ih (fun c hc => h c (by simp [hc]))]
    simp

theorem utf16_dec (cps : List Nat) (h : ∀ cp ∈ cps, cp < 0x10000 ∧ isScalar cp) :
    utf16Dec (cps.flatMap fun cp => [UInt8.ofNat (cp / 256), UInt8.ofNat (cp % 256)]) = some cps := by
  induction cps with
  | nil => rfl
  | cons cp cps ih =>
    obtain ⟨h1, h2⟩ := h cp (by simp)
    simp only [List.flatMap_cons, List.cons_append, List.nil_append]
    unfold utf16Dec
    have e : (UInt8.ofNat (cp / 256)).toNat * 256 + (UInt8.ofNat (cp % 256)).toNat = cp := by
      simp only [UInt8.toNat_ofNat']; omega
    simp only [e]
    have hs : cp < 0xD800 ∨ 0xE000 ≤ cp := by unfold isScalar at h2; omega
    simp only [hs, if_true]
    rw [ih (fun c hc => h c (by simp [hc]))]; rfl

end Verif.Proof
