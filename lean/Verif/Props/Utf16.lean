import Verif.Proof.Utf16
/- C02: UTF-8 text is stored as equivalent UTF-16BE. -/
namespace Verif.Props
open Verif Verif.Model Verif.Spec

/-- **C02** (partial: Basic Multilingual Plane). For every text of BMP scalar values, the stored bytes are
the byte order mark (if requested) followed by UTF-16BE bytes that decode to the same code points.
Missing: code points ≥ 0x10000, for which the claim is false, see `C02_astral_false`. -/
theorem C02_utf16_bmp (cps : List Nat) (bom : Bool)
    (h : ∀ cp ∈ cps, cp < 0x10000 ∧ isScalar cp) :
    ∃ u, utf8toutf16 (utf8Enc cps) bom = some ((if bom then [0xFE, 0xFF] else []) ++ u) ∧
      utf16Dec u = some cps := by
  refine ⟨_, ?_, Proof.utf16_dec cps h⟩
  simp [utf8toutf16, Proof.utf16_loop cps (fun c hc => (h c hc).1)]

example : ∀ cp ∈ [0x41, 0xE9, 0x20AC, 0x4E2D, 0xFFFD], cp < 0x10000 ∧ isScalar cp := by decide

/-- **C02** The conversion never fails (panics) on a BMP text and yields two bytes per character. -/
theorem C02_utf16_length (cps : List Nat) (h : ∀ cp ∈ cps, cp < 0x10000) :
    ∃ u, utf8toutf16 (utf8Enc cps) false = some u ∧ u.length = 2 * cps.length := by
  refine ⟨cps.flatMap fun cp => [UInt8.ofNat (cp / 256), UInt8.ofNat (cp % 256)], ?_, ?_⟩
  · simp [utf8toutf16, Proof.utf16_loop cps h]
  · induction cps with
    | nil => rfl
    | cons c cps ih =>
      have := ih (fun c hc => h c (by simp [hc]))
      simp only [List.flatMap_cons, List.length_append, List.length_cons, List.length_nil, this]; omega

/-- **C02** is false beyond the BMP: U+1F600 is stored as something that does not decode to it. -/
theorem C02_astral_false :
    ¬ ∀ cps : List Nat, (∀ cp ∈ cps, isScalar cp) →
      ∃ u, utf8toutf16 (utf8Enc cps) false = some u ∧ utf16Dec u = some cps := by
  intro h
  obtain ⟨u, h1, h2⟩ := h [0x1F600] (by decide)
  have e : utf8toutf16 (utf8Enc [0x1F600]) false = some [0x07, 0xD8, 0, 0x80] := by decide
  rw [e] at h1
  cases h1
  exact absurd h2 (by decide)

/-- A truncated multi-byte sequence makes the library panic rather than return (index out of range). -/
theorem C02_truncated_panics : utf8toutf16 [0x41, 0xE2, 0x82] true = none := by decide

end Verif.Props
