import Verif.Proof.Protect
/- C04, C05, C06: document protection. -/
namespace Verif.Props
open Verif Verif.Model Verif.Spec

/-- **C04** RC4 with the same key twice gives back the data, for every key and data; lengths are kept. -/
theorem C04_rc4_involutive (key data : Bytes) :
    rc4Crypt key (rc4Crypt key data) = data ∧ (rc4Crypt key data).length = data.length :=
  ⟨Proof.rc4Crypt_involutive key data, Proof.rc4_xor_length _ _⟩

/-- **C04** The first (or only) string or stream that the library encrypts in object `n` is decrypted by a
reader to the original bytes, and has the same length. -/
theorem C04_first_in_object_decrypts (md5 : Bytes → Bytes) (p : Protect) (n : Nat) (b : Bytes)
    (h : p.cipher = none ∨ p.rc4n ≠ n) :
    decryptIn md5 p.encryptionKey n (p.rc4 md5 n b).2 = b ∧ (p.rc4 md5 n b).2.length = b.length := by
  rw [Proof.rc4_fresh md5 p n b h]
  exact ⟨Proof.rc4Crypt_involutive _ _, Proof.rc4_xor_length _ _⟩

example : ({} : Protect).cipher = none ∨ ({} : Protect).rc4n ≠ 7 := Or.inl rfl

/-- The encryption dictionary and trailer entries written for a protected document
(`/O`, `/U`, `/P`: `/repo/fpdf.go:4602-4612`; `/ID [()()]`: `/repo/fpdf.go:4711`). -/
def writtenDict (p : Protect) : EncDict := { O := p.oValue, U := p.uValue, P := p.pValue, id0 := [] }

theorem protect_setProtection_fields (md5 : Bytes → Bytes) (rnd : Bytes) (p : Protect) (flag : UInt8)
    (user owner : Bytes) :
    let p' := p.setProtection md5 rnd flag user owner
    (writtenDict p').O =
        rc4Crypt ((md5 (padPassword (if owner = [] then rnd else owner))).take 5) (padPassword user) ∧
      p'.encryptionKey = fileKey md5 (writtenDict p') user ∧
      (writtenDict p').U = rc4Crypt p'.encryptionKey pwPad := by
  have hfl := Proof.privFlag_tbl flag.toNat flag.toNat_lt
  simp only [UInt8.ofNat_toNat] at hfl
  have hO : ∀ a b, oValueGen md5 a b = rc4Crypt ((md5 b).take 5) a := fun _ _ => rfl
  have hU : ∀ q : Protect, q.uValueGen = rc4Crypt q.encryptionKey q.padding := fun _ => rfl
  simp only [writtenDict, Protect.setProtection, fileKey, hfl.1, List.append_nil, padPassword, pwPad, hO, hU,
    and_self]

/-- **C05** Whatever user and owner passwords and flags are given, a reader authenticates with the user
password and with the owner password, recovers the padded user password from the owner password, and
derives the key the library encrypts with. -/
theorem C05_passwords_authenticate (md5 : Bytes → Bytes) (rnd : Bytes) (p : Protect) (flag : UInt8)
    (user owner : Bytes) :
    let p' := p.setProtection md5 rnd flag user owner
    let realOwner := if owner = [] then rnd else owner
    authUser md5 (writtenDict p') user = true ∧
      userFromOwner md5 (writtenDict p') realOwner = padPassword user ∧
      authOwner md5 (writtenDict p') realOwner = true ∧
      fileKey md5 (writtenDict p') user = p'.encryptionKey := by
  intro p' realOwner
  obtain ⟨h1, h2, h3⟩ := protect_setProtection_fields md5 rnd p flag user owner
  have hu : userFromOwner md5 (writtenDict p') realOwner = padPassword user := by
    show rc4Crypt _ (writtenDict p').O = _
    rw [h1]; exact Proof.rc4Crypt_involutive _ _
  have hauth : authUser md5 (writtenDict p') user = true := by
    simp only [authUser, decide_eq_true_eq]
    rw [← h2, ← h3]
  refine ⟨hauth, hu, ?_, h2.symm⟩
  have hpp : padPassword (padPassword user) = padPassword user := by
    simp only [padPassword]
    have hl : ((user ++ pwPad).take 32).length = 32 := by simp [pwPad]
    rw [List.take_append_of_le_length (by omega), List.take_of_length_le (by omega)]
  have hk : fileKey md5 (writtenDict p') (padPassword user) = fileKey md5 (writtenDict p') user := by
    simp only [fileKey, hpp]
  simp only [authOwner, hu, authUser, hk]
  simpa [authUser] using hauth

/-- **C05** The permission value written grants printing (bit 3), modifying (bit 4), copying (bit 5) and
annotating (bit 6) exactly as requested by the flag argument. -/
theorem C05_permissions (md5 : Bytes → Bytes) (rnd : Bytes) (p : Protect) (flag : UInt8) (user owner : Bytes) :
    let P := (writtenDict (p.setProtection md5 rnd flag user owner)).P
    (permBit P 3 = decide (flag.toNat / 4 % 2 = 1)) ∧ (permBit P 4 = decide (flag.toNat / 8 % 2 = 1)) ∧
      (permBit P 5 = decide (flag.toNat / 16 % 2 = 1)) ∧ (permBit P 6 = decide (flag.toNat / 32 % 2 = 1)) := by
  have h := (Proof.privFlag_tbl flag.toNat flag.toNat_lt).2
  simp only [UInt8.ofNat_toNat] at h
  exact ⟨h 3 (by simp), h 4 (by simp), h 5 (by simp), h 6 (by simp)⟩

example : permBit (-64 + 4) 3 = true ∧ permBit (-64) 3 = false := by decide

/-- No two neighbouring entries are equal. -/
def noRepeat : List Nat → Prop
  | a :: b :: r => a ≠ b ∧ noRepeat (b :: r)
  | _ => True

/-- **C06**  In a run of encryptions where no two consecutive ones belong to the same object, a
reader recovers every string and stream. Missing: several strings in one object, for which the claim is
false, see `C06_second_string_false`. -/
theorem C06_one_per_object (md5 : Bytes → Bytes) (p : Protect) (l : List (Nat × Bytes))
    (hfirst : ∀ x ∈ l.head?, p.cipher = none ∨ p.rc4n ≠ x.1)
    (hdist : noRepeat (l.map (·.1))) :
    List.zipWith (fun x c => decryptIn md5 p.encryptionKey x.1 c) l (p.encryptAll md5 l) = l.map (·.2) := by
  induction l generalizing p with
  | nil => rfl
  | cons x l ih =>
    obtain ⟨n, b⟩ := x
    simp only [Protect.encryptAll, List.zipWith_cons_cons, List.map_cons]
    have h1 := (C04_first_in_object_decrypts md5 p n b (hfirst (n, b) (by simp))).1
    obtain ⟨hk, hn⟩ := Proof.rc4_encryptionKey md5 p n b
    have := ih (p.rc4 md5 n b).1 (by
      intro y hy
      right
      rw [hn]
      cases l with
      | nil => simp at hy
      | cons z l =>
        simp only [List.head?_cons, Option.mem_def, Option.some.injEq] at hy
        subst hy
        simp only [List.map_cons, noRepeat] at hdist
        exact hdist.1) (by
      cases l with
      | nil => simp [noRepeat]
      | cons z l =>
        simp only [List.map_cons, noRepeat] at hdist
        simpa using hdist.2)
    rw [hk] at this
    rw [h1, this]

example : (∀ x ∈ [(3, B "a"), (4, B "b"), (3, B "c")].head?, ({} : Protect).cipher = none ∨ ({} : Protect).rc4n ≠ x.1) ∧
    noRepeat ([(3, B "a"), (4, B "b"), (3, B "c")].map (·.1)) := by simp [noRepeat]

/-- **C06** What really happens to the second of two consecutive strings of one object: it is encrypted with
the *continuation* of the key stream, so a reader would have to decrypt both together. -/
theorem C06_same_object_continues (md5 : Bytes → Bytes) (p : Protect) (n : Nat) (a b : Bytes)
    (h : p.cipher = none ∨ p.rc4n ≠ n) :
    (p.encryptAll md5 [(n, a), (n, b)]).flatten = rc4Crypt (objKey md5 p.encryptionKey n) (a ++ b) := by
  have key : ∀ q : Protect, ∀ c : Rc4, q.cipher = some c → q.rc4n = n →
      (q.rc4 md5 n b).2 = (c.xor b).1 := by
    intro q c h1 h2
    simp [Protect.rc4, h1, h2]
  simp only [Protect.encryptAll, List.flatten_cons, List.flatten_nil, List.append_nil, rc4Crypt,
    Proof.rc4_xor_append]
  rw [Proof.rc4_fresh md5 p n a h]
  congr 1
  apply key
  · unfold Protect.rc4
    cases hc : p.cipher with
    | none => simp [objKey, Protect.objectKey]
    | some c =>
      have hn : p.rc4n ≠ n := by
        rcases h with h | h
        · rw [hc] at h; cases h
        · exact h
      simp [hn, objKey, Protect.objectKey]
  · exact (Proof.rc4_encryptionKey md5 p n a).2

/-- **C06** refuted: with two text strings in one object (every protected document has them: the
information dictionary holds at least /Producer and /CreationDate), the second is not recovered. -/
theorem C06_second_string_false :
    ¬ ∀ (md5 : Bytes → Bytes) (p : Protect) (l : List (Nat × Bytes)), p.cipher = none →
      List.zipWith (fun x c => decryptIn md5 p.encryptionKey x.1 c) l (p.encryptAll md5 l) = l.map (·.2) := by
  intro h
  have := h (fun _ => List.replicate 16 0) {} [(9, [0x41]), (9, [0x42])] rfl
  exact absurd this (by decide +kernel)

end Verif.Props
