import Verif.Model.Escape
import Verif.Spec.Lex
namespace Verif.Proof
open Verif Verif.Model Verif.Spec

theorem replaceAll_single (c : UInt8) (new s : Bytes) :
    replaceAll [c] new s = s.flatMap (fun b => if b = c then new else [b]) := by
  simp only [replaceAll, List.cons_ne_self, reduceIte]
  induction s with
  | nil => simp [replaceGo]
  | cons a s ih =>
    unfold replaceGo
    by_cases h : c = a
    · subst h; simp [List.isPrefixOf, ih]
    · have h' : ¬ a = c := fun e => h e.symm
      simp [List.isPrefixOf, ih, h, h']

/-- What `escape` does to one byte. -/
def escByte (c : UInt8) : Bytes :=
  if c = 0x5C then [0x5C, 0x5C]
  else if c = 0x28 then [0x5C, 0x28]
  else if c = 0x29 then [0x5C, 0x29]
  else if c = 0x0D then [0x5C, 0x72]
  else [c]

def escByteCell (c : UInt8) : Bytes :=
  if c = 0x5C then [0x5C, 0x5C]
  else if c = 0x28 then [0x5C, 0x28]
  else if c = 0x29 then [0x5C, 0x29]
  else [c]

theorem escape_eq (s : Bytes) : escape s = s.flatMap escByte := by
  have h1 : B "\\" = [0x5C] := by decide
  have h2 : B "\\\\" = [0x5C, 0x5C] := by decide
  have h3 : B "(" = [0x28] := by decide
  have h4 : B "\\(" = [0x5C, 0x28] := by decide
  have h5 : B ")" = [0x29] := by decide
  have h6 : B "\\)" = [0x5C, 0x29] := by decide
  have h7 : B "\r" = [0x0D] := by decide
  have h8 : B "\\r" = [0x5C, 0x72] := by decide
  simp only [escape, h1, h2, h3, h4, h5, h6, h7, h8, replaceAll_single, List.flatMap_assoc]
  congr 1
  funext c
  unfold escByte
  by_cases e1 : c = 0x5C
  · subst e1; decide
  · by_cases e2 : c = 0x28
    · subst e2; decide
    · by_cases e3 : c = 0x29
      · subst e3; decide
      · by_cases e4 : c = 0x0D
        · subst e4; decide
        · simp [e1, e2, e3, e4]

theorem escapeCell_eq (s : Bytes) : escapeCell s = s.flatMap escByteCell := by
  have h1 : B "\\" = [0x5C] := by decide
  have h2 : B "\\\\" = [0x5C, 0x5C] := by decide
  have h3 : B "(" = [0x28] := by decide
  have h4 : B "\\(" = [0x5C, 0x28] := by decide
  have h5 : B ")" = [0x29] := by decide
  have h6 : B "\\)" = [0x5C, 0x29] := by decide
  simp only [escapeCell, h1, h2, h3, h4, h5, h6, replaceAll_single, List.flatMap_assoc]
  congr 1
  funext c
  unfold escByteCell
  by_cases e1 : c = 0x5C
  · subst e1; decide
  · by_cases e2 : c = 0x28
    · subst e2; decide
    · by_cases e3 : c = 0x29
      · subst e3; decide
      · simp [e1, e2, e3]

theorem lexFrom_append (m : Mode) (a b : Bytes) :
    lexFrom m (a ++ b) =
      ((lexFrom (lexFrom m a).1 b).1, (lexFrom m a).2 ++ (lexFrom (lexFrom m a).1 b).2) := by
  induction a generalizing m with
  | nil => simp [lexFrom]
  | cons c a ih => simp [lexFrom, ih]

theorem lexFrom_cons (m : Mode) (c : UInt8) (b : Bytes) :
    lexFrom m (c :: b) =
      ((lexFrom (lexStep m c).1 b).1, (lexStep m c).2 ++ (lexFrom (lexStep m c).1 b).2) := rfl

theorem lexFrom_escByte (acc : Bytes) (c : UInt8) :
    lexFrom (.str 1 acc .norm) (escByte c) = (.str 1 (acc ++ [c]) .norm, []) := by
  unfold escByte
  by_cases e1 : c = 0x5C
  · subst e1; simp [lexFrom, lexStep, strNorm, strEsc, isOctal]
  by_cases e2 : c = 0x28
  · subst e2; simp [lexFrom, lexStep, strNorm, strEsc, isOctal]
  by_cases e3 : c = 0x29
  · subst e3; simp [lexFrom, lexStep, strNorm, strEsc, isOctal]
  by_cases e4 : c = 0x0D
  · subst e4; simp [lexFrom, lexStep, strNorm, strEsc]
  simp [lexFrom, lexStep, strNorm, e1, e2, e3, e4]

theorem lexFrom_escape (acc s : Bytes) :
    lexFrom (.str 1 acc .norm) (escape s) = (.str 1 (acc ++ s) .norm, []) := by
  rw [escape_eq]
  induction s generalizing acc with
  | nil => simp [lexFrom]
  | cons c s ih =>
    rw [List.flatMap_cons, lexFrom_append, lexFrom_escByte]
    simp [ih]

/-- Reading is scanning: if scanning a prefix stays inside the string, skip it. -/
theorem readLitFrom_append (m m' : Mode) (a b : Bytes)
    (h : lexFrom m a = (m', [])) : readLitFrom m (a ++ b) = readLitFrom m' b := by
  induction a generalizing m with
  | nil => simp [lexFrom] at h; simp [h]
  | cons c a ih =>
    rw [lexFrom_cons] at h
    simp only [Prod.mk.injEq, List.append_eq_nil_iff] at h
    obtain ⟨h1, h2, h3⟩ := h
    rw [List.cons_append]
    conv => lhs; unfold readLitFrom
    cases hs : lexStep m c with
    | mk m1 t1 =>
      rw [hs] at h1 h2 h3
      simp only at h2
      subst h2
      simp only
      exact ih m1 (by rw [← h1, ← h3])

theorem readLit_textstringPlain (s rest : Bytes) :
    readLit (textstringPlain s ++ rest) = some (s, rest) := by
  have h3 : B "(" = [0x28] := by decide
  have h5 : B ")" = [0x29] := by decide
  simp only [textstringPlain, h3, h5, List.append_assoc, List.cons_append, List.nil_append, readLit, if_true]
  rw [readLitFrom_append _ _ _ _ (lexFrom_escape [] s)]
  simp [readLitFrom, lexStep, strNorm]

/-! Cell escaping: CR and CRLF are read as LF. -/

theorem strMode_step_cell (acc : Bytes) (c : UInt8) (sub : StrSub) (hs : sub = .norm ∨ sub = .cr)
    (h10 : sub = .cr → c ≠ 10) :
    lexFrom (.str 1 acc sub) (escByteCell c) =
      if c = 13 then (.str 1 (acc ++ [10]) .cr, []) else (.str 1 (acc ++ [c]) .norm, []) := by
  have key : lexFrom (.str 1 acc .norm) (escByteCell c) =
      if c = 13 then (.str 1 (acc ++ [10]) .cr, []) else (.str 1 (acc ++ [c]) .norm, []) := by
    unfold escByteCell
    by_cases e1 : c = 0x5C
    · subst e1; simp [lexFrom, lexStep, strNorm, strEsc, isOctal]
    by_cases e2 : c = 0x28
    · subst e2; simp [lexFrom, lexStep, strNorm, strEsc, isOctal]
    by_cases e3 : c = 0x29
    · subst e3; simp [lexFrom, lexStep, strNorm, strEsc, isOctal]
    by_cases e4 : c = 0x0D
    · subst e4; simp [lexFrom, lexStep, strNorm]
    simp [lexFrom, lexStep, strNorm, e1, e2, e3, e4]
  rcases hs with hs | hs
  · subst hs; exact key
  · subst hs
    have h : c ≠ 10 := h10 rfl
    rw [← key]
    unfold escByteCell
    by_cases e1 : c = 0x5C
    · subst e1; simp [lexFrom, lexStep, strNorm]
    by_cases e2 : c = 0x28
    · subst e2; simp [lexFrom, lexStep, strNorm]
    by_cases e3 : c = 0x29
    · subst e3; simp [lexFrom, lexStep, strNorm]
    simp [lexFrom, lexStep, e1, e2, e3, h]

theorem lexFrom_escapeCell (s : Bytes) :
    (∀ acc, ∃ sub, (sub = StrSub.norm ∨ sub = .cr) ∧
      lexFrom (.str 1 acc .norm) (escapeCell s) = (.str 1 (acc ++ eolNorm s) sub, [])) ∧
    (∀ acc, ∃ sub, (sub = StrSub.norm ∨ sub = .cr) ∧
      lexFrom (.str 1 acc .cr) (escapeCell s) =
        (.str 1 (acc ++ eolNorm (match s with | 10 :: r => r | _ => s)) sub, [])) := by
  simp only [escapeCell_eq]
  induction s with
  | nil => constructor <;> intro acc <;> simp [lexFrom, eolNorm]
  | cons c s ih =>
    have main : ∀ (sub0 : StrSub), (sub0 = .norm ∨ sub0 = .cr) → (sub0 = .cr → c ≠ 10) → ∀ acc,
      ∃ sub, (sub = StrSub.norm ∨ sub = .cr) ∧
      lexFrom (.str 1 acc sub0) ((c :: s).flatMap escByteCell) =
        (.str 1 (acc ++ eolNorm (c :: s)) sub, []) := by
      intro sub0 h0 h1 acc
      rw [List.flatMap_cons, lexFrom_append, strMode_step_cell _ _ _ h0 h1]
      by_cases h13 : c = 13
      · subst h13
        obtain ⟨sub, hsub, he⟩ := ih.2 (acc ++ [10])
        refine ⟨sub, hsub, ?_⟩
        simp only [if_true, he]
        cases s with
        | nil => simp [eolNorm]
        | cons d s =>
          by_cases h10 : d = 10
          · subst h10; simp [eolNorm]
          · have : eolNorm (13 :: d :: s) = 10 :: eolNorm (d :: s) := by
              rw [eolNorm]; intro r hr; cases hr; exact h10 rfl
            simp [this, h10]
      · obtain ⟨sub, hsub, he⟩ := ih.1 (acc ++ [c])
        refine ⟨sub, hsub, ?_⟩
        simp only [h13, if_false, he]
        have : eolNorm (c :: s) = c :: eolNorm s := by
          rw [eolNorm]
          · intro r hr; exact absurd hr h13
          · intro hr; exact absurd hr h13
        simp [this]
    refine ⟨fun acc => main .norm (.inl rfl) (by simp) acc, fun acc => ?_⟩
    by_cases h10 : c = 10
    · subst h10
      obtain ⟨sub, hsub, he⟩ := ih.1 acc
      refine ⟨sub, hsub, ?_⟩
      rw [List.flatMap_cons, lexFrom_append]
      have : lexFrom (.str 1 acc .cr) (escByteCell 10) = (.str 1 acc .norm, []) := by
        simp [escByteCell, lexFrom, lexStep]
      simp [this, he]
    · have := main .cr (.inr rfl) (fun _ => h10) acc
      simpa [h10] using this

theorem readLit_escapeCell (s rest : Bytes) :
    readLit (B "(" ++ escapeCell s ++ B ")" ++ rest) = some (eolNorm s, rest) := by
  have h3 : B "(" = [0x28] := by decide
  have h5 : B ")" = [0x29] := by decide
  simp only [h3, h5, List.append_assoc, List.cons_append, List.nil_append, readLit, if_true]
  obtain ⟨sub, hsub, he⟩ := (lexFrom_escapeCell s).1 []
  rw [readLitFrom_append _ _ _ _ he]
  rcases hsub with h | h <;> subst h <;> simp [readLitFrom, lexStep, strNorm]

end Verif.Proof
