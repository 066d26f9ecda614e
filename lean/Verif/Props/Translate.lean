import Verif.Model.Translate
import Verif.Proof.Runes
import Verif.Proof.Fonts
import Verif.Spec.CodePage
/-
Claim C47: translation to a code page.
-/
namespace Verif.Props
open Verif Verif.Model Verif.Spec Verif.Proof

theorem scanLines_line (l s : Bytes) (h : (10 : UInt8) ∉ l) : scanLines (l ++ 10 :: s) = l :: scanLines s := by
  induction l with
  | nil => rw [List.nil_append, scanLines, if_pos rfl]
  | cons c l ih =>
    have hc : c ≠ 10 := fun e => h (by simp [e])
    rw [List.cons_append, scanLines, if_neg hc, ih fun e => h (by simp [e])]

theorem hexCase_val : ∀ b n, n < 16 → hexVal? (hexCase b n) = some n ∧ isSpaceB (hexCase b n) = false ∧ hexCase b n ≠ 10 := by decide

theorem name_ok (c : UInt8) (h : 0x21 ≤ c ∧ c ≤ 0x7E) : isSpaceB c = false ∧ c ≠ 10 := by
  revert h
  revert c
  exact forall_byte (by decide +kernel)

theorem CodeLine_noNl (l : CodeLine) (h : l.Ok) : (10 : UInt8) ∉ l.text := by
  obtain ⟨h1, h2, -, h3⟩ := h
  have d : ∀ n, n < 16 → ¬ (10 : UInt8) = hexCase l.lower n := fun n hn e => (hexCase_val l.lower n hn).2.2 e.symm
  unfold CodeLine.text
  simp only [List.mem_append, List.mem_cons, List.not_mem_nil, or_false, not_or]
  refine ⟨⟨by decide, d _ (by omega), d _ (by omega), by decide, by decide, by decide, d _ (by omega), d _ (by omega), d _ (by omega), d _ (by omega), by decide⟩, fun hm => (name_ok _ (h3 _ hm)).2 rfl⟩

theorem scanLines_file (ls : List CodeLine) (h : ∀ l ∈ ls, l.Ok) (s : Bytes) : scanLines (codeFile ls ++ s) = ls.map (·.text) ++ scanLines s := by
  induction ls with
  | nil => rfl
  | cons l ls ih =>
    unfold codeFile at ih ⊢
    rw [List.flatMap_cons, List.append_assoc, List.append_assoc, List.singleton_append, scanLines_line _ _ (CodeLine_noNl l (h l (by simp))), ih fun x hx => h x (by simp [hx])]
    rfl

theorem trim_text (l : CodeLine) (h : l.Ok) : trimSpaceB l.text = l.text := by
  obtain ⟨-, -, h2, h3⟩ := h
  unfold trimSpaceB
  have e : l.text.dropWhile isSpaceB = l.text := by
    unfold CodeLine.text
    rw [List.cons_append, List.dropWhile_cons_of_neg (by decide)]
  rw [e]
  have e2 : l.text.reverse.dropWhile isSpaceB = l.text.reverse := by
    unfold CodeLine.text
    rw [List.reverse_append]
    have hne : l.name.reverse ≠ [] := by simpa using h2
    obtain ⟨c, r, hr⟩ := List.exists_cons_of_ne_nil hne
    have hc : c ∈ l.name := by rw [← List.mem_reverse, hr]; simp
    rw [hr, List.cons_append, List.dropWhile_cons_of_neg (by rw [(name_ok c (h3 c hc)).1]; decide)]
  rw [e2, List.reverse_reverse]

theorem scan_text (l : CodeLine) (h : l.Ok) : scanMapLine l.text = some (l.pos, l.cp) := by
  obtain ⟨h0, h1, h2, h3⟩ := h
  obtain ⟨c, r, hr⟩ := List.exists_cons_of_ne_nil h2
  have hc := name_ok c (h3 c (by rw [hr]; simp))
  have d := hexCase_val l.lower
  have d1 := d (l.pos / 16) (by omega)
  have d2 := d (l.pos % 16) (by omega)
  have d3 := d (l.cp / 4096) (by omega)
  have d4 := d (l.cp / 256 % 16) (by omega)
  have d5 := d (l.cp / 16 % 16) (by omega)
  have d6 := d (l.cp % 16) (by omega)
  have g1 : ∀ a b s, hexVal? a = some (l.pos / 16) ∧ isSpaceB a = false ∧ a ≠ 10 → hexVal? b = some (l.pos % 16) ∧ isSpaceB b = false ∧ b ≠ 10 →
      scanHex 2 (a :: b :: s) = some (l.pos, s) := by
    intro a b s ha hb
    unfold scanHex
    dsimp only
    rw [List.dropWhile_cons_of_neg (by rw [ha.2.1]; decide)]
    simp only [List.take_succ_cons, List.take_zero, List.takeWhile_cons, ha.1, hb.1, Option.isSome_some, if_true, List.takeWhile_nil, reduceCtorEq, if_false, List.foldl_cons, List.foldl_nil,
      Option.getD_some, List.length_cons, List.length_nil, List.drop_succ_cons, List.drop_zero, Option.some.injEq, Prod.mk.injEq, and_true]
    omega
  have g2 : ∀ a b c d s, hexVal? a = some (l.cp / 4096) ∧ isSpaceB a = false ∧ a ≠ 10 → hexVal? b = some (l.cp / 256 % 16) ∧ isSpaceB b = false ∧ b ≠ 10 →
      hexVal? c = some (l.cp / 16 % 16) ∧ isSpaceB c = false ∧ c ≠ 10 → hexVal? d = some (l.cp % 16) ∧ isSpaceB d = false ∧ d ≠ 10 →
      scanHex 4 (a :: b :: c :: d :: s) = some (l.cp, s) := by
    intro a b c d s ha hb hc hd
    unfold scanHex
    dsimp only
    rw [List.dropWhile_cons_of_neg (by rw [ha.2.1]; decide)]
    simp only [List.take_succ_cons, List.take_zero, List.takeWhile_cons, ha.1, hb.1, hc.1, hd.1, Option.isSome_some, if_true, List.takeWhile_nil, reduceCtorEq, if_false, List.foldl_cons,
      List.foldl_nil, Option.getD_some, List.length_cons, List.length_nil, List.drop_succ_cons, List.drop_zero, Option.some.injEq, Prod.mk.injEq, and_true]
    omega
  have b1 : ∀ s, scanBlank (0x20 :: 0x55 :: s) = some (0x55 :: s) := by
    intro s
    unfold scanBlank
    dsimp only
    rw [if_pos (by decide), List.dropWhile_cons_of_pos (by decide), List.dropWhile_cons_of_neg (by decide)]
  have b2 : scanBlank (0x20 :: c :: r) = some (c :: r) := by
    unfold scanBlank
    dsimp only
    rw [if_pos (by decide), List.dropWhile_cons_of_pos (by decide), List.dropWhile_cons_of_neg (by rw [hc.1]; decide)]
  unfold scanMapLine CodeLine.text
  rw [hr]
  simp only [List.cons_append, List.nil_append, scanChar, if_true, Option.bind_eq_bind, Option.bind_some, g1 _ _ _ d1 d2, b1, g2 _ _ _ _ _ d3 d4 d5 d6, b2]
  rw [List.dropWhile_cons_of_neg (by rw [hc.1]; decide)]
  rfl

/-- The map after these lines. -/
def mapOf (ls : List CodeLine) : List (Nat × UInt8) := (ls.reverse.filter fun l => decide (128 ≤ l.pos)).map fun l => (l.cp, UInt8.ofNat l.pos)

theorem readMap_text (ls : List CodeLine) (h : ∀ l ∈ ls, l.Ok) : readMap (ls.map (·.text)) = (mapOf ls, false) := by
  unfold readMap
  have key : ∀ (ls : List CodeLine) (m : List (Nat × UInt8)), (∀ l ∈ ls, l.Ok) → (ls.map (·.text)).foldl (fun s l =>
      let l := trimSpaceB l
      if l = [] then s
      else match scanMapLine l with
        | none => (s.1, true)
        | some (c, u) => (if c ≥ 0x80 then (u, UInt8.ofNat c) :: s.1 else s.1, false)) (m, false) = (mapOf ls ++ m, false) := by
    intro ls
    induction ls with
    | nil => intro m _; rfl
    | cons l ls ih =>
      intro m h
      have hl := h l (by simp)
      have hne : ¬ l.text = [] := by unfold CodeLine.text; simp
      rw [List.map_cons, List.foldl_cons]
      dsimp only
      rw [trim_text l hl, if_neg hne, scan_text l hl]
      dsimp only
      rw [ih _ fun x hx => h x (by simp [hx])]
      unfold mapOf
      rw [List.reverse_cons, List.filter_append, List.map_append, List.append_assoc]
      by_cases hp : 128 ≤ l.pos
      · rw [if_pos hp, List.filter_cons_of_pos (by simpa using hp)]
        rfl
      · rw [if_neg hp, List.filter_cons_of_neg (by simpa using hp)]
        rfl
  have := key ls [] h
  rw [List.append_nil] at this
  exact this

theorem lookup_mapOf (ls : List CodeLine) (cp : Nat) (h : ¬ cp < 128) : ((mapOf ls).lookup cp).getD 0x2E = codeByte ls cp := by
  unfold codeByte mapOf
  rw [if_neg h]
  generalize ls.reverse = r
  induction r with
  | nil => rfl
  | cons l r ih =>
    by_cases h1 : 128 ≤ l.pos
    · rw [List.filter_cons_of_pos (by simpa using h1), List.map_cons, List.lookup_cons, List.find?_cons]
      by_cases h2 : l.cp = cp
      · have e : decide (l.cp = cp ∧ 128 ≤ l.pos) = true := by simp [h1, h2]
        rw [e, ← h2, beq_self_eq_true]
        rfl
      · have e : decide (l.cp = cp ∧ 128 ≤ l.pos) = false := by simp [h2]
        rw [e, beq_eq_false_iff_ne.mpr (Ne.symm h2)]
        exact ih
    · have e : decide (l.cp = cp ∧ 128 ≤ l.pos) = false := by simp [h1]
      rw [List.filter_cons_of_neg (by simpa using h1), List.find?_cons, e]
      exact ih

/-- **C47.** A file of code page lines is read without error, and the function returned translates every UTF-8 text character by character: ASCII characters to themselves, the others to the position
that the file gives them beyond ASCII, and to a period if it gives them none. -/
theorem C47_translates (ls : List CodeLine) (h : ∀ l ∈ ls, l.Ok) :
    (unicodeTranslator (codeFile ls)).2 = false ∧
      ∀ cps : List Nat, (∀ cp ∈ cps, isScalar cp) → (unicodeTranslator (codeFile ls)).1 (utf8Enc cps) = cps.map (codeByte ls) := by
  have e : scanLines (codeFile ls) = ls.map (·.text) := by
    have := scanLines_file ls h []
    rw [List.append_nil] at this
    rw [this]
    exact List.append_nil _
  unfold unicodeTranslator
  rw [e, readMap_text ls h]
  refine ⟨rfl, fun cps hc => ?_⟩
  show repClosure (mapOf ls) (utf8Enc cps) = _
  unfold repClosure
  rw [runes_utf8 cps hc]
  apply List.map_congr_left
  intro cp _
  by_cases hp : cp < 128
  · rw [if_pos hp]
    unfold codeByte
    rw [if_pos hp]
  · rw [if_neg hp]
    exact lookup_mapOf ls cp hp

/-- **C47.** Whatever the file and the text, valid or not, the function makes one byte of each character, and leaves ASCII text as it is. -/
theorem C47_ascii (r : Bytes) (s : Bytes) (h : ∀ c ∈ s, c < 0x80) : (unicodeTranslator r).1 s = s := by
  have hr : ∀ s : Bytes, (∀ c ∈ s, c < 0x80) → runes s = s.map (·.toNat) := by
    intro s
    unfold runes
    induction s with
    | nil => intro _; rfl
    | cons c s ih =>
      intro h
      have hc : decodeRune c s = (c.toNat, 0) := by
        unfold decodeRune
        dsimp only
        rw [if_pos (h c (by simp))]
      rw [runesGo, hc, List.map_cons]
      dsimp only
      rw [ih fun x hx => h x (by simp [hx])]
  unfold unicodeTranslator
  dsimp only
  split
  · rfl
  · show repClosure _ s = s
    unfold repClosure
    rw [hr s h, List.map_map]
    conv => rhs; rw [← List.map_id s]
    apply List.map_congr_left
    intro c hc
    have := h c hc
    rw [UInt8.lt_iff_toNat_lt] at this
    simp only [Function.comp_apply, id_eq]
    rw [if_pos (by exact this)]
    exact UInt8.ofNat_toNat

/-- **C47.** If the last line that is not blank is not a code page line, there is an error and the function returned changes nothing. -/
theorem C47_bad_last (ls : List Bytes) (l : Bytes) (blanks : List Bytes) (hls : ∀ x ∈ ls ++ [l] ++ blanks, (10 : UInt8) ∉ x) (hl : trimSpaceB l ≠ []) (hb : ∀ x ∈ blanks, trimSpaceB x = [])
    (hbad : scanMapLine (trimSpaceB l) = none) (s : Bytes) :
    (unicodeTranslator ((ls ++ [l] ++ blanks).flatMap fun x => x ++ [10])).2 = true ∧ (unicodeTranslator ((ls ++ [l] ++ blanks).flatMap fun x => x ++ [10])).1 s = s := by
  have hs : ∀ ls : List Bytes, (∀ x ∈ ls, (10 : UInt8) ∉ x) → scanLines (ls.flatMap fun x => x ++ [10]) = ls := by
    intro ls
    induction ls with
    | nil => intro _; rfl
    | cons x ls ih =>
      intro h
      rw [List.flatMap_cons, List.append_assoc, List.singleton_append, scanLines_line _ _ (h x (by simp)), ih fun y hy => h y (by simp [hy])]
  have hm : (readMap (ls ++ [l] ++ blanks)).2 = true := by
    unfold readMap
    rw [List.foldl_append, List.foldl_append]
    generalize ls.foldl _ _ = a
    rw [List.foldl_cons, List.foldl_nil]
    dsimp only
    rw [if_neg hl, hbad]
    generalize a.1 = m
    clear hls
    induction blanks with
    | nil => rfl
    | cons x bs ih =>
      rw [List.foldl_cons]
      dsimp only
      rw [if_pos (hb x (by simp))]
      exact ih fun y hy => hb y (by simp [hy])
  unfold unicodeTranslator
  rw [hs _ hls]
  dsimp only
  rw [if_pos hm]
  exact ⟨rfl, rfl⟩

/-- A malformed line that is not the last one is not reported: the documentation says "An error occurs only if a line is read that does not conform to the expected format. In this case, the returned
function is valid but does not perform any rune translation", but the error of a line is forgotten at the next. -/
theorem C47_report_false : ∃ (bad : Bytes) (l : CodeLine), l.Ok ∧ scanMapLine (trimSpaceB bad) = none ∧ trimSpaceB bad ≠ [] ∧ (unicodeTranslator (bad ++ [10] ++ codeFile [l])).2 = false :=
  ⟨B "garbage", ⟨0x80, 0x20AC, B "Euro", false⟩, by unfold CodeLine.Ok; decide, by decide, by decide, by decide⟩

/-- Two lines of the code page 1252. -/
def euroLines : List CodeLine := [⟨0x41, 0x41, B "A", false⟩, ⟨0x80, 0x20AC, B "Euro", false⟩, ⟨0xE9, 0xE9, B "eacute", true⟩]

example : (∀ l ∈ euroLines, l.Ok) ∧ (∀ cp ∈ [0x41, 0x20AC, 0xE9, 0x1F600], isScalar cp) ∧ [0x41, 0x20AC, 0xE9, 0x1F600].map (codeByte euroLines) = [0x41, 0x80, 0xE9, 0x2E] ∧
    codeFile euroLines = B "!41 U+0041 A\n!80 U+20AC Euro\n!e9 U+00e9 eacute\n" := by
  unfold CodeLine.Ok
  decide

example : (∀ c ∈ B "plain text", c < 0x80) ∧ scanMapLine (trimSpaceB (B "!80 U+20AC")) = none ∧ trimSpaceB (B "!80 U+20AC") ≠ [] := by decide

end Verif.Props
