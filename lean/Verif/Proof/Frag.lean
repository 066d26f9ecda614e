import Verif.Model.Sprintf
import Verif.Spec.Content
import Verif.Proof.Escape
import Verif.Proof.Num
/-
Fragments of content streams, and a symbolic reader of format strings: what instructions a formatted line contains, whatever its arguments.
-/
namespace Verif.Proof
open Verif Verif.Model Verif.Spec

theorem instrsFrom_append (acc : List Tok) (a b : List Tok) :
    instrsFrom acc (a ++ b) =
      ((instrsFrom (instrsFrom acc a).1 b).1, (instrsFrom acc a).2 ++ (instrsFrom (instrsFrom acc a).1 b).2) := by
  induction a generalizing acc with
  | nil => simp [instrsFrom]
  | cons t a ih =>
    cases t with
    | word w => simp only [List.cons_append, instrsFrom]; split <;> simp [ih]
    | _ => simp only [List.cons_append, instrsFrom, ih]

/-- `b` reads as the instructions `is`, and leaves the reader between tokens with no pending operand. -/
def Lines (b : Bytes) (is : List Instr) : Prop := ∃ toks, lexFrom .ws b = (.ws, toks) ∧ instrsFrom [] toks = ([], is)

/-- `b`, followed by white space, reads as the instructions `is`. -/
def Frag (b : Bytes) (is : List Instr) : Prop := ∀ c, isWs c = true → Lines (b ++ [c]) is

theorem Lines.instrs {b : Bytes} {is : List Instr} (h : Lines b is) : instrs b = is := by
  obtain ⟨toks, h1, h2⟩ := h
  simp [Spec.instrs, lex, h1, flushTok, h2]

theorem Lines.nil : Lines [] [] := ⟨[], rfl, rfl⟩

theorem Lines.append {a b : Bytes} {i j : List Instr} (ha : Lines a i) (hb : Lines b j) : Lines (a ++ b) (i ++ j) := by
  obtain ⟨ta, h1, h2⟩ := ha
  obtain ⟨tb, h3, h4⟩ := hb
  refine ⟨ta ++ tb, ?_, ?_⟩
  · rw [lexFrom_append, h1]; simp [h3]
  · rw [instrsFrom_append, h2]; simp [h4]

theorem Frag.line {b : Bytes} {is : List Instr} (h : Frag b is) : Lines (b ++ [10]) is := h 10 (by decide)

theorem Frag.nil : Frag [] [] := fun c hc => ⟨[], by simp [lexFrom, lexStep, startTok, hc], rfl⟩

theorem Lines.frag {a b : Bytes} {i j : List Instr} (ha : Lines a i) (hb : Frag b j) : Frag (a ++ b) (i ++ j) := by
  intro c hc
  rw [List.append_assoc]
  exact ha.append (hb c hc)

theorem Frag.append {a b : Bytes} {i j : List Instr} (ha : Frag a i) (hb : Frag b j) (c : UInt8) (hc : isWs c = true) :
    Frag (a ++ [c] ++ b) (i ++ j) := (ha c hc).frag hb

/-! ### Format strings -/

/-- Items of a format string. -/
inductive It
  | c (b : UInt8) | d | s | f (n : Nat) | pad

/-- The items of a format string. -/
def items : Bytes → List It
  | 0x25 :: 0x25 :: r => .c 0x25 :: items r
  | 0x25 :: 0x64 :: r => .d :: items r
  | 0x25 :: 0x73 :: r => .s :: items r
  | 0x25 :: 0x2E :: n :: 0x66 :: r => .f (n.toNat - 48) :: items r
  | 0x25 :: 0x2E :: n :: 0x46 :: r => .f (n.toNat - 48) :: items r
  | 0x25 :: 0x30 :: 0x31 :: 0x30 :: 0x64 :: r => .pad :: items r
  | c :: r => .c c :: items r
  | [] => []

/-- Formatting by items. -/
def render : List It → List Arg → Option Bytes
  | .c b :: r, as => (render r as).map (b :: ·)
  | .d :: r, .d z :: as => (render r as).map (intDec z ++ ·)
  | .s :: r, .s b :: as => (render r as).map (b ++ ·)
  | .f n :: r, .f q :: as => (render r as).map (fmtF n q ++ ·)
  | .pad :: r, .d z :: as => (render r as).map (zeroPad 10 z.toNat ++ ·)
  | [], _ => some []
  | _, _ => none

theorem sprintfB_of_render (fmt : Bytes) : ∀ (as : List Arg) (b : Bytes), render (items fmt) as = some b → sprintfB fmt as = b := by
  fun_induction items fmt with
  | case1 r ih =>
    intro as b h
    simp only [render, Option.map_eq_some_iff] at h
    obtain ⟨b', h1, h2⟩ := h
    rw [sprintfB, ih _ _ h1, h2]
  | case2 r ih =>
    intro as b h
    cases as with
    | nil => simp [render] at h
    | cons a as =>
      cases a <;> simp only [render, Option.map_eq_some_iff, reduceCtorEq] at h
      obtain ⟨b', h1, h2⟩ := h
      rw [sprintfB, ih _ _ h1, h2]
  | case3 r ih =>
    intro as b h
    cases as with
    | nil => simp [render] at h
    | cons a as =>
      cases a <;> simp only [render, Option.map_eq_some_iff, reduceCtorEq] at h
      obtain ⟨b', h1, h2⟩ := h
      rw [sprintfB, ih _ _ h1, h2]
  | case4 n r ih =>
    intro as b h
    cases as with
    | nil => simp [render] at h
    | cons a as =>
      cases a <;> simp only [render, Option.map_eq_some_iff, reduceCtorEq] at h
      obtain ⟨b', h1, h2⟩ := h
      rw [sprintfB, ih _ _ h1, h2]
  | case5 n r ih =>
    intro as b h
    cases as with
    | nil => simp [render] at h
    | cons a as =>
      cases a <;> simp only [render, Option.map_eq_some_iff, reduceCtorEq] at h
      obtain ⟨b', h1, h2⟩ := h
      rw [sprintfB, ih _ _ h1, h2]
  | case6 r ih =>
    intro as b h
    cases as with
    | nil => simp [render] at h
    | cons a as =>
      cases a <;> simp only [render, Option.map_eq_some_iff, reduceCtorEq] at h
      obtain ⟨b', h1, h2⟩ := h
      rw [sprintfB, ih _ _ h1, h2]
  | case7 c r h1 h2 h3 h4 h5 h6 ih =>
    intro as b h
    simp only [render, Option.map_eq_some_iff] at h
    obtain ⟨b', h7, h8⟩ := h
    rw [sprintfB, ih _ _ h7, h8]
    all_goals (intros; simp_all)
  | case8 => intro as b h; simp [render] at h; simp [sprintfB, h]

/-- A symbolic argument: a number, a string of regular characters, an escaped text (as `escape` or as `CellFormat` does it), a fragment. -/
inductive SArg
  | f (q : Rat) | d (z : Int) | reg (b : Bytes) | lit (s : Bytes) | cell (s : Bytes) | frag (b : Bytes) (is : List Instr)

/-- The actual argument. -/
def SArg.arg : SArg → Arg
  | .f q => .f q
  | .d z => .d z
  | .reg b => .s b
  | .lit s => .s (escape s)
  | .cell s => .s (escapeCell s)
  | .frag b _ => .s b

/-- What is required of an argument. -/
def SArg.Ok : SArg → Prop
  | .reg b => ∀ c ∈ b, isRegular c = true
  | .frag b is => Frag b is
  | _ => True

/-- Mode of the symbolic reader: `num w` is a number already read, `done` a fragment already read; both must be followed by white space. -/
inductive SM
  | ws | word (w : Bytes) | name (w : Bytes) | num (w : Bytes) | done

/-- A complete word is read: a number is an operand, anything else an operator. -/
def emitWord (w : Bytes) (acc : List Tok) (k : List Tok → Option (List Instr)) : Option (List Instr) :=
  if isNumWord w then k (acc ++ [.word w]) else (k []).map ((acc, w) :: ·)

/-- Symbolic reading of a format string: the instructions it produces. -/
def sym : SM → List Tok → List It → List SArg → Option (List Instr)
  | .ws, acc, [], _ => if acc = [] then some [] else none
  | .done, acc, [], _ => if acc = [] then some [] else none
  | .word w, acc, [], _ => emitWord w acc fun acc => if acc = [] then some [] else none
  | .name _, _, [], _ => none
  | .num _, _, [], _ => none
  | .ws, acc, .c 0x28 :: .s :: .c 0x29 :: r, .lit s :: as => sym .ws (acc ++ [.str s]) r as
  | .ws, acc, .c 0x28 :: .s :: .c 0x29 :: r, .cell s :: as => sym .ws (acc ++ [.str (eolNorm s)]) r as
  | .ws, acc, .c b :: r, as =>
    if isWs b then sym .ws acc r as
    else if b = 0x2F then sym (.name []) acc r as
    else if b = 0x5B ∨ b = 0x5D then sym .ws (acc ++ [.punct b]) r as
    else if isRegular b then sym (.word [b]) acc r as
    else none
  | .ws, acc, .f n :: r, .f q :: as => sym (.num (fmtF n q)) acc r as
  | .ws, acc, .d :: r, .d z :: as => sym (.num (intDec z)) acc r as
  | .ws, acc, .s :: r, .frag _ is :: as => if acc = [] then (sym .done [] r as).map (is ++ ·) else none
  | .ws, acc, .s :: r, .reg b :: as => if b.isEmpty then none else sym (.word b) acc r as
  | .done, acc, .c b :: r, as => if isWs b then sym .ws acc r as else none
  | .num w, acc, .c b :: r, as =>
    if isWs b then sym .ws (acc ++ [.word w]) r as
    else if b = 0x5B ∨ b = 0x5D then sym .ws (acc ++ [.word w, .punct b]) r as
    else none
  | .word w, acc, .c b :: r, as =>
    if isRegular b then sym (.word (w ++ [b])) acc r as
    else if isWs b then emitWord w acc fun acc => sym .ws acc r as
    else none
  | .name w, acc, .c b :: r, as =>
    if isRegular b then sym (.name (w ++ [b])) acc r as
    else if isWs b then sym .ws (acc ++ [.name w]) r as
    else none
  | .name w, acc, .d :: r, .d z :: as => sym (.name (w ++ intDec z)) acc r as
  | .name w, acc, .s :: r, .reg b :: as => sym (.name (w ++ b)) acc r as
  | _, _, _, _ => none

example (a b : Rat) : sym .ws [] (items (B "%.2f %.2f m")) [.f a, .f b] =
   some [([.word (fmtF 2 a), .word (fmtF 2 b)], B "m")] := rfl
example (a b : Rat) (s i : Bytes) : sym .ws [] (items (B "BT /F%s %.2f %.2f Td (%s)Tj ET")) [.reg i, .f a, .f b, .lit s] =
   some [([], B "BT"), ([.name (B "F" ++ i), .word (fmtF 2 a), .word (fmtF 2 b)], B "Td"), ([.str s], B "Tj"), ([], B "ET")] := rfl
/-! ### Soundness of the symbolic reader -/

theorem lexFrom_word (a w : Bytes) (h : ∀ c ∈ w, isRegular c = true) : lexFrom (.word a) w = (.word (a ++ w), []) := by
  induction w generalizing a with
  | nil => simp [lexFrom]
  | cons c w ih =>
    rw [lexFrom_cons]
    have hc := h c (by simp)
    simp [lexStep, hc, ih (a ++ [c]) (fun x hx => h x (by simp [hx]))]

theorem lexFrom_name (a w : Bytes) (h : ∀ c ∈ w, isRegular c = true) : lexFrom (.name a) w = (.name (a ++ w), []) := by
  induction w generalizing a with
  | nil => simp [lexFrom]
  | cons c w ih =>
    rw [lexFrom_cons]
    have hc := h c (by simp)
    simp [lexStep, hc, ih (a ++ [c]) (fun x hx => h x (by simp [hx]))]

theorem startTok_regular (c : UInt8) (h : isRegular c = true) : startTok c = (.word [c], []) := by
  simp only [isRegular, Bool.and_eq_true, Bool.not_eq_true'] at h
  obtain ⟨h1, h2⟩ := h
  have h3 := h2
  simp only [isDelim, Bool.or_eq_false_iff, decide_eq_false_iff_not] at h3
  simp [startTok, h1, h2, h3]

theorem lexFrom_ws_word (w : Bytes) (hw : w ≠ []) (h : ∀ c ∈ w, isRegular c = true) : lexFrom .ws w = (.word w, []) := by
  cases w with
  | nil => exact absurd rfl hw
  | cons c w =>
    rw [lexFrom_cons]
    have hc := h c (by simp)
    simp [lexStep, startTok_regular c hc, lexFrom_word [c] w (fun x hx => h x (by simp [hx]))]

theorem lexFrom_ws_name (w : Bytes) (h : ∀ c ∈ w, isRegular c = true) : lexFrom .ws (0x2F :: w) = (.name w, []) := by
  rw [lexFrom_cons]
  have : lexStep .ws 0x2F = (.name [], []) := by decide
  simp [this, lexFrom_name [] w h]

theorem isRegular_of_digit (c : UInt8) (h : isDigit c = true) : isRegular c = true := by
  simp only [isDigit, Bool.and_eq_true, decide_eq_true_eq, UInt8.le_iff_toNat_le] at h
  have h1 : (48 : UInt8).toNat = 48 := rfl
  have h2 : (57 : UInt8).toNat = 57 := rfl
  have : ∀ n : Fin 256, 48 ≤ n.val → n.val ≤ 57 → isRegular (UInt8.ofNat n.val) = true := by decide +kernel
  have := this ⟨c.toNat, c.toNat_lt⟩ (by simpa using h.1) (by simpa using h.2)
  simpa using this

theorem isWs_not_regular (c : UInt8) (h : isWs c = true) : isRegular c = false := by simp [isRegular, h]

theorem fmtF_regular (p : Nat) (q : Rat) : ∀ c ∈ fmtF p q, isRegular c = true := by
  intro c hc
  rcases fmtF_chars p q c hc with h | h | h
  · exact isRegular_of_digit c h
  · subst h; decide
  · subst h; decide

theorem fmtF_isNum (p : Nat) (q : Rat) : isNumWord (fmtF p q) = true := by
  have h := fmtF_chars p q
  have hn := fmtF_ne_nil p q
  cases hw : fmtF p q with
  | nil => exact absurd hw hn
  | cons c r =>
    rw [hw] at h
    rcases h c (by simp) with h | h | h <;> simp [isNumWord, h]

theorem natDec_regular (n : Nat) : ∀ c ∈ natDec n, isRegular c = true :=
  fun c hc => isRegular_of_digit c ((natDec_spec n).2.1 c hc)

theorem intDec_regular (z : Int) : ∀ c ∈ intDec z, isRegular c = true := by
  intro c hc
  unfold intDec at hc
  split at hc
  · rcases List.mem_cons.mp hc with h | h
    · subst h; decide
    · exact natDec_regular _ c h
  · exact natDec_regular _ c hc

theorem intDec_ne_nil (z : Int) : intDec z ≠ [] := by
  unfold intDec
  split
  · simp
  · exact (natDec_spec _).1

theorem intDec_isNum (z : Int) : isNumWord (intDec z) = true := by
  unfold intDec
  split
  · simp [isNumWord]
  · have h := natDec_spec z.natAbs
    cases hw : natDec z.natAbs with
    | nil => exact absurd hw h.1
    | cons c r => rw [hw] at h; simp [isNumWord, h.2.1 c (by simp)]

/-- What the symbolic reader promises: the bytes `pre ++ out`, followed by white space, read as `is` when the operands `acc` are pending. -/
def Rd (acc : List Tok) (b : Bytes) (is : List Instr) : Prop :=
  ∀ c, isWs c = true → ∃ toks, lexFrom .ws (b ++ [c]) = (.ws, toks) ∧ instrsFrom acc toks = ([], is)

theorem Rd.step {acc acc' : List Tok} {p out : Bytes} {t : List Tok} {i0 is : List Instr} (h1 : lexFrom .ws p = (.ws, t))
    (h2 : instrsFrom acc t = (acc', i0)) (h3 : Rd acc' out is) : Rd acc (p ++ out) (i0 ++ is) := by
  intro c hc
  obtain ⟨toks, h4, h5⟩ := h3 c hc
  refine ⟨t ++ toks, ?_, ?_⟩
  · rw [List.append_assoc, lexFrom_append, h1]; simp [h4]
  · rw [instrsFrom_append, h2]; simp [h5]

theorem Rd.nil : Rd [] [] [] := fun c hc => ⟨[], by simp [lexFrom, lexStep, startTok, hc], rfl⟩

/-- The bytes already read in a mode, and the instructions they stand for. -/
inductive Pre : SM → Bytes → List Instr → Prop
  | ws : Pre .ws [] []
  | word (w : Bytes) : w ≠ [] → (∀ c ∈ w, isRegular c = true) → Pre (.word w) w []
  | name (w : Bytes) : (∀ c ∈ w, isRegular c = true) → Pre (.name w) (0x2F :: w) []
  | num (w : Bytes) : w ≠ [] → (∀ c ∈ w, isRegular c = true) → isNumWord w = true → Pre (.num w) w []
  | done (b : Bytes) (is : List Instr) : Frag b is → Pre .done b is

theorem lex_word_end (w : Bytes) (hw : w ≠ []) (h : ∀ c ∈ w, isRegular c = true) (c : UInt8) (hc : isWs c = true) :
    lexFrom .ws (w ++ [c]) = (.ws, [.word w]) := by
  rw [lexFrom_append, lexFrom_ws_word w hw h]
  simp [lexFrom, lexStep, isWs_not_regular c hc, startTok, hc]

theorem lex_name_end (w : Bytes) (h : ∀ c ∈ w, isRegular c = true) (c : UInt8) (hc : isWs c = true) :
    lexFrom .ws (0x2F :: w ++ [c]) = (.ws, [.name w]) := by
  rw [lexFrom_append, lexFrom_ws_name w h]
  simp [lexFrom, lexStep, isWs_not_regular c hc, startTok, hc]

theorem lex_word_bracket (w : Bytes) (hw : w ≠ []) (h : ∀ c ∈ w, isRegular c = true) (c : UInt8) (hc : c = 0x5B ∨ c = 0x5D) :
    lexFrom .ws (w ++ [c]) = (.ws, [.word w, .punct c]) := by
  rw [lexFrom_append, lexFrom_ws_word w hw h]
  have h1 : isRegular c = false := by rcases hc with rfl | rfl <;> decide
  have h2 : startTok c = (.ws, [.punct c]) := by rcases hc with rfl | rfl <;> decide
  simp [lexFrom, lexStep, h1, h2]

theorem lex_lit (s : Bytes) : lexFrom .ws (0x28 :: escape s ++ [0x29]) = (.ws, [.str s]) := by
  rw [List.cons_append, lexFrom_cons]
  have : lexStep .ws 0x28 = (.str 1 [] .norm, []) := by decide
  rw [this, lexFrom_append, lexFrom_escape]
  simp [lexFrom, lexStep, strNorm]

theorem lex_cell (s : Bytes) : lexFrom .ws (0x28 :: escapeCell s ++ [0x29]) = (.ws, [.str (eolNorm s)]) := by
  rw [List.cons_append, lexFrom_cons]
  have : lexStep .ws 0x28 = (.str 1 [] .norm, []) := by decide
  obtain ⟨sub, hs, h⟩ := (lexFrom_escapeCell s).1 []
  rw [this, lexFrom_append, h]
  rcases hs with rfl | rfl <;> simp [lexFrom, lexStep, strNorm]

theorem emitWord_some {w : Bytes} {acc : List Tok} {k : List Tok → Option (List Instr)} {is : List Instr}
    (h : emitWord w acc k = some is) :
    (isNumWord w = true ∧ k (acc ++ [.word w]) = some is) ∨
    (isNumWord w = false ∧ ∃ is', k [] = some is' ∧ is = (acc, w) :: is') := by
  unfold emitWord at h
  split at h
  · exact .inl ⟨‹_›, h⟩
  · rw [Option.map_eq_some_iff] at h
    obtain ⟨is', h1, h2⟩ := h
    rename_i hn
    exact .inr ⟨by simpa using hn, is', h1, h2.symm⟩

theorem sym_sound (m : SM) (acc : List Tok) (its : List It) (sargs : List SArg) :
    ∀ is pre i0, sym m acc its sargs = some is → (∀ a ∈ sargs, a.Ok) → Pre m pre i0 → (m = .done → acc = []) →
      ∃ out, render its (sargs.map SArg.arg) = some out ∧ Rd acc (pre ++ out) (i0 ++ is) := by
  fun_induction sym m acc its sargs with
  | case1 | case3 =>
    intro is pre i0 h1 _ hp _
    cases h1
    refine ⟨[], by simp [render], ?_⟩
    cases hp
    first
      | exact Rd.nil
      | (rename_i hf; intro c hc; simpa [Lines] using hf c hc)
  | case2 | case4 | case6 | case7 | case14 | case18 | case19 | case22 | case25 | case28 | case31 | case34 => intro is pre i0 h1; cases h1
  | case5 w acc =>
    intro is pre i0 h1 _ hp _
    refine ⟨[], by simp [render], ?_⟩
    cases hp
    rename_i hw hr
    intro c hc
    refine ⟨[.word w], by simpa using lex_word_end w hw hr c hc, ?_⟩
    rcases emitWord_some h1 with ⟨hn, hk⟩ | ⟨hn, is', hk, rfl⟩
    · simp at hk
    · simp only [if_true, Option.some.injEq] at hk
      subst hk
      simp [instrsFrom, hn]
  | case8 acc r s as ih =>
    intro is pre i0 h1 hok hp _
    obtain ⟨out, ho, hr⟩ := ih is [] [] h1 (fun a ha => hok a (by simp [ha])) .ws (by simp)
    cases hp
    refine ⟨_, by simp [render, ho, SArg.arg]; rfl, ?_⟩
    have := Rd.step (acc := acc) (lex_lit s) (by simp [instrsFrom]; rfl) hr
    simpa using this
  | case9 acc r s as ih =>
    intro is pre i0 h1 hok hp _
    obtain ⟨out, ho, hr⟩ := ih is [] [] h1 (fun a ha => hok a (by simp [ha])) .ws (by simp)
    cases hp
    refine ⟨_, by simp [render, ho, SArg.arg]; rfl, ?_⟩
    have := Rd.step (acc := acc) (lex_cell s) (by simp [instrsFrom]; rfl) hr
    simpa using this
  | case10 acc b r as _ _ h ih =>
    intro is pre i0 h1 hok hp _
    obtain ⟨out, ho, hr⟩ := ih is [] [] h1 hok .ws (by simp)
    cases hp
    refine ⟨_, by simp [render, ho]; rfl, ?_⟩
    have := Rd.step (acc := acc) (p := [b]) (t := []) (by simp [lexFrom, lexStep, startTok, h]) (by simp [instrsFrom]; rfl) hr
    simpa using this
  | case11 acc r as _ _ h ih =>
    intro is pre i0 h1 hok hp _
    obtain ⟨out, ho, hr⟩ := ih is _ [] h1 hok (.name [] (by simp)) (by simp)
    cases hp
    exact ⟨_, by simp [render, ho]; rfl, by simpa using hr⟩
  | case12 acc b r as _ _ h2 h3 h ih =>
    intro is pre i0 h1 hok hp _
    obtain ⟨out, ho, hr⟩ := ih is [] [] h1 hok .ws (by simp)
    cases hp
    refine ⟨_, by simp [render, ho]; rfl, ?_⟩
    have hst : startTok b = (.ws, [.punct b]) := by rcases h with rfl | rfl <;> decide
    have := Rd.step (acc := acc) (p := [b]) (t := [.punct b]) (by simp [lexFrom, lexStep, hst]) (by simp [instrsFrom]; rfl) hr
    simpa using this
  | case13 acc b r as _ _ h2 h3 h4 h ih =>
    intro is pre i0 h1 hok hp _
    obtain ⟨out, ho, hr⟩ := ih is _ [] h1 hok (.word [b] (by simp) (by simpa using h)) (by simp)
    cases hp
    exact ⟨_, by simp [render, ho]; rfl, by simpa using hr⟩
  | case15 acc n r q as ih =>
    intro is pre i0 h1 hok hp _
    obtain ⟨out, ho, hr⟩ := ih is _ [] h1 (fun a ha => hok a (by simp [ha]))
      (.num _ (fmtF_ne_nil n q) (fmtF_regular n q) (fmtF_isNum n q)) (by simp)
    cases hp
    exact ⟨_, by simp [render, ho, SArg.arg]; rfl, by simpa using hr⟩
  | case16 acc r z as ih =>
    intro is pre i0 h1 hok hp _
    obtain ⟨out, ho, hr⟩ := ih is _ [] h1 (fun a ha => hok a (by simp [ha]))
      (.num _ (intDec_ne_nil z) (intDec_regular z) (intDec_isNum z)) (by simp)
    cases hp
    exact ⟨_, by simp [render, ho, SArg.arg]; rfl, by simpa using hr⟩
  | case17 r b is0 as ih =>
    intro is pre i0 h1 hok hp _
    rw [Option.map_eq_some_iff] at h1
    obtain ⟨is', h1, rfl⟩ := h1
    have hb : Frag b is0 := hok (.frag b is0) (by simp)
    obtain ⟨out, ho, hr⟩ := ih is' b is0 h1 (fun a ha => hok a (by simp [ha])) (.done b is0 hb) (by simp)
    cases hp
    exact ⟨_, by simp [render, ho, SArg.arg]; rfl, by simpa using hr⟩
  | case20 acc r b as h ih =>
    intro is pre i0 h1 hok hp _
    have hb : ∀ c ∈ b, isRegular c = true := hok (.reg b) (by simp)
    obtain ⟨out, ho, hr⟩ := ih is b [] h1 (fun a ha => hok a (by simp [ha])) (.word b (by simpa using h) hb) (by simp)
    cases hp
    exact ⟨_, by simp [render, ho, SArg.arg]; rfl, by simpa using hr⟩
  | case21 acc b r as h ih =>
    intro is pre i0 h1 hok hp hd
    have hd := hd rfl
    subst hd
    obtain ⟨out, ho, hr⟩ := ih is [] [] h1 hok .ws (by simp)
    cases hp
    rename_i hf
    obtain ⟨toks, h2, h3⟩ := hf b h
    refine ⟨_, by simp [render, ho]; rfl, ?_⟩
    have := Rd.step h2 h3 hr
    simpa using this
  | case23 w acc b r as h ih =>
    intro is pre i0 h1 hok hp hd
    obtain ⟨out, ho, hr⟩ := ih is [] [] h1 hok .ws (by simp)
    cases hp
    rename_i hw hg hn
    refine ⟨_, by simp [render, ho]; rfl, ?_⟩
    have := Rd.step (acc := acc) (lex_word_end w hw hg b h) (by simp [instrsFrom, hn]; rfl) hr
    simpa using this
  | case24 w acc b r as h0 h ih =>
    intro is pre i0 h1 hok hp hd
    obtain ⟨out, ho, hr⟩ := ih is [] [] h1 hok .ws (by simp)
    cases hp
    rename_i hw hg hn
    refine ⟨_, by simp [render, ho]; rfl, ?_⟩
    have := Rd.step (acc := acc) (lex_word_bracket w hw hg b h) (by simp [instrsFrom, hn]; rfl) hr
    simpa using this
  | case26 w acc b r as h ih =>
    intro is pre i0 h1 hok hp hd
    cases hp
    rename_i hw hg
    obtain ⟨out, ho, hr⟩ := ih is _ [] h1 hok (.word (w ++ [b]) (by simp) (by
      intro c hc; rcases List.mem_append.mp hc with hc | hc
      · exact hg c hc
      · rw [List.mem_singleton.mp hc]; exact h)) (by simp)
    exact ⟨_, by simp [render, ho]; rfl, by simpa using hr⟩
  | case27 w acc b r as h0 h ih =>
    intro is pre i0 h1 hok hp hd
    cases hp
    rename_i hw hg
    rcases emitWord_some h1 with ⟨hn, hk⟩ | ⟨hn, is', hk, rfl⟩
    · obtain ⟨out, ho, hr⟩ := ih _ is [] [] hk hok .ws (by simp)
      refine ⟨_, by simp [render, ho]; rfl, ?_⟩
      have := Rd.step (acc := acc) (lex_word_end w hw hg b h) (by simp [instrsFrom, hn]; rfl) hr
      simpa using this
    · obtain ⟨out, ho, hr⟩ := ih _ is' [] [] hk hok .ws (by simp)
      refine ⟨_, by simp [render, ho]; rfl, ?_⟩
      have := Rd.step (acc := acc) (lex_word_end w hw hg b h) (by simp [instrsFrom, hn]; rfl) hr
      simpa using this
  | case29 w acc b r as h ih =>
    intro is pre i0 h1 hok hp hd
    cases hp
    rename_i hg
    obtain ⟨out, ho, hr⟩ := ih is _ [] h1 hok (.name (w ++ [b]) (by
      intro c hc; rcases List.mem_append.mp hc with hc | hc
      · exact hg c hc
      · rw [List.mem_singleton.mp hc]; exact h)) (by simp)
    exact ⟨_, by simp [render, ho]; rfl, by simpa using hr⟩
  | case30 w acc b r as h0 h ih =>
    intro is pre i0 h1 hok hp hd
    cases hp
    rename_i hg
    obtain ⟨out, ho, hr⟩ := ih is [] [] h1 hok .ws (by simp)
    refine ⟨_, by simp [render, ho]; rfl, ?_⟩
    have := Rd.step (acc := acc) (lex_name_end w hg b h) (by simp [instrsFrom]; rfl) hr
    simpa using this
  | case32 w acc r z as ih =>
    intro is pre i0 h1 hok hp hd
    cases hp
    rename_i hg
    obtain ⟨out, ho, hr⟩ := ih is _ [] h1 (fun a ha => hok a (by simp [ha])) (.name (w ++ intDec z) (by
      intro c hc; rcases List.mem_append.mp hc with hc | hc
      · exact hg c hc
      · exact intDec_regular z c hc)) (by simp)
    exact ⟨_, by simp [render, ho, SArg.arg]; rfl, by simpa using hr⟩
  | case33 w acc r b as ih =>
    intro is pre i0 h1 hok hp hd
    cases hp
    rename_i hg
    have hb : ∀ c ∈ b, isRegular c = true := hok (.reg b) (by simp)
    obtain ⟨out, ho, hr⟩ := ih is _ [] h1 (fun a ha => hok a (by simp [ha])) (.name (w ++ b) (by
      intro c hc; rcases List.mem_append.mp hc with hc | hc
      · exact hg c hc
      · exact hb c hc)) (by simp)
    exact ⟨_, by simp [render, ho, SArg.arg]; rfl, by simpa using hr⟩

/-- A formatted line, followed by white space, reads as the instructions the symbolic reader finds. -/
theorem sprintf_frag (fmt : String) (sargs : List SArg) {is : List Instr} (h : sym .ws [] (items (B fmt)) sargs = some is)
    (hok : ∀ a ∈ sargs, a.Ok) : Frag (sprintf fmt (sargs.map SArg.arg)) is := by
  obtain ⟨out, h1, h2⟩ := sym_sound .ws [] _ _ is [] [] h hok .ws (by simp)
  unfold sprintf
  rw [sprintfB_of_render _ _ _ h1]
  intro c hc
  simpa [Lines] using h2 c hc
end Verif.Proof
