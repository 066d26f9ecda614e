import Verif.Props.Settings
/-
C49: fonts are selected by family and style.
-/
namespace Verif.Props
open Verif Verif.Model Verif.Spec Verif.Proof

/-- A style string contains a letter, in either case (`u` upper, `l` lower). -/
def hasLetter (st : Bytes) (u l : UInt8) : Bool := st.any fun c => c == u || c == l
/-- Bold. -/
def bold (st : Bytes) : Bool := hasLetter st 0x42 0x62
/-- Italic. -/
def italic (st : Bytes) : Bool := hasLetter st 0x49 0x69
/-- Underlined. -/
def underlined (st : Bytes) : Bool := hasLetter st 0x55 0x75
/-- Struck out. -/
def struck (st : Bytes) : Bool := hasLetter st 0x53 0x73

/-- The style strings of the documentation: the letters B, I, U and S in either case and any order, B and I not repeated. -/
structure StyleOk (st : Bytes) : Prop where
  letters : ∀ c ∈ st, c ∈ B "BIUSbius"
  once : (st.filter fun c => c == 0x42 || c == 0x62).length ≤ 1 ∧ (st.filter fun c => c == 0x49 || c == 0x69).length ≤ 1

/-- The same family name up to the case of ASCII letters. -/
def sameCase (a b : Bytes) : Prop := toLower a = toLower b

theorem upper_u : ∀ c : UInt8, ((if 97 ≤ c ∧ c ≤ 122 then c - 32 else c) == 0x55) = (c == 0x55 || c == 0x75) := forall_byte (by decide +kernel)
theorem upper_s : ∀ c : UInt8, ((if 97 ≤ c ∧ c ≤ 122 then c - 32 else c) == 0x53) = (c == 0x53 || c == 0x73) := forall_byte (by decide +kernel)
theorem upper_b : ∀ c : UInt8, ((if 97 ≤ c ∧ c ≤ 122 then c - 32 else c) == 0x42) = (c == 0x42 || c == 0x62) := forall_byte (by decide +kernel)
theorem upper_i : ∀ c : UInt8, ((if 97 ≤ c ∧ c ≤ 122 then c - 32 else c) == 0x49) = (c == 0x49 || c == 0x69) := forall_byte (by decide +kernel)

theorem upper_contains (st : Bytes) (u l : UInt8) (h : ∀ c : UInt8, ((if 97 ≤ c ∧ c ≤ 122 then c - 32 else c) == u) = (c == u || c == l)) : (toUpper st).contains u = hasLetter st u l := by
  unfold toUpper hasLetter
  induction st with
  | nil => rfl
  | cons c r ih =>
    rw [List.map_cons, List.contains_cons, List.any_cons, ih, ← h c, Bool.beq_comm]

/-- The letters B and I of a style, in upper case. -/
def bi (st : Bytes) : Bytes := ((toUpper st).filter (· ≠ 0x55)).filter (· ≠ 0x53)

theorem bi_filter (st : Bytes) (u l : UInt8) (h : ∀ c : UInt8, ((if 97 ≤ c ∧ c ≤ 122 then c - 32 else c) == u) = (c == u || c == l)) (h1 : u ≠ 0x55) (h2 : u ≠ 0x53) :
    (bi st).filter (· == u) = ((st.filter fun c => c == u || c == l)).map fun _ => u := by
  unfold bi toUpper
  induction st with
  | nil => rfl
  | cons c r ih =>
    rw [List.map_cons, List.filter_cons (x := c), ← h c]
    generalize (if 97 ≤ c ∧ c ≤ 122 then c - 32 else c) = d
    by_cases hd : d = u
    · subst hd
      rw [List.filter_cons_of_pos (by simpa using h1), List.filter_cons_of_pos (by simpa using h2), List.filter_cons_of_pos (by simp), ih]
      simp
    · have e : (d == u) = false := by simpa using hd
      rw [e]
      by_cases h3 : d = 0x55
      · rw [List.filter_cons_of_neg (by simpa using h3), ih]; simp
      · rw [List.filter_cons_of_pos (by simpa using h3)]
        by_cases h4 : d = 0x53
        · rw [List.filter_cons_of_neg (by simpa using h4), ih]; simp
        · rw [List.filter_cons_of_pos (by simpa using h4), List.filter_cons_of_neg (by simpa using hd), ih]; simp

theorem bi_letters {st : Bytes} (h : ∀ c ∈ st, c ∈ B "BIUSbius") : ∀ c ∈ bi st, c = 0x42 ∨ c = 0x49 := by
  intro c hc
  unfold bi at hc
  rw [List.mem_filter, List.mem_filter] at hc
  obtain ⟨⟨hc, h1⟩, h2⟩ := hc
  unfold toUpper at hc
  obtain ⟨d, hd, rfl⟩ := List.mem_map.mp hc
  have key : ∀ d : UInt8, d ∈ B "BIUSbius" → (decide ((if 97 ≤ d ∧ d ≤ 122 then d - 32 else d) ≠ 0x55)) = true → (decide ((if 97 ≤ d ∧ d ≤ 122 then d - 32 else d) ≠ 0x53)) = true →
      (if 97 ≤ d ∧ d ≤ 122 then d - 32 else d) = 0x42 ∨ (if 97 ≤ d ∧ d ≤ 122 then d - 32 else d) = 0x49 := forall_byte (by decide +kernel)
  exact key d (h d hd) h1 h2

theorem two_letters {l : Bytes} (h : ∀ c ∈ l, c = 0x42 ∨ c = 0x49) (h1 : (l.filter (· == 0x42)).length ≤ 1) (h2 : (l.filter (· == 0x49)).length ≤ 1) :
    (if l = B "IB" then B "BI" else l) = (if (l.filter (· == 0x42)) ≠ [] then B "B" else []) ++ (if (l.filter (· == 0x49)) ≠ [] then B "I" else []) := by
  match l with
  | [] => decide +kernel
  | [a] => rcases h a (by simp) with rfl | rfl <;> decide +kernel
  | [a, b] =>
    rcases h a (by simp) with rfl | rfl <;> rcases h b (by simp) with rfl | rfl
    · simp at h1
    · decide +kernel
    · decide +kernel
    · simp at h2
  | a :: b :: c :: r =>
    exfalso
    rcases h a (by simp) with rfl | rfl <;> rcases h b (by simp) with rfl | rfl <;> rcases h c (by simp) with rfl | rfl <;> simp at h1 h2

/-- The style `SetFont` records for a style string. -/
theorem parse_ok {st : Bytes} (h : StyleOk st) :
    Fpdf.parseStyle st = (underlined st, struck st, (if bold st then B "B" else []) ++ (if italic st then B "I" else [])) := by
  rw [parseStyle_eq, upper_contains st _ _ upper_u, upper_contains st _ _ upper_s]
  have fb := bi_filter st 0x42 0x62 upper_b (by decide) (by decide)
  have fi := bi_filter st 0x49 0x69 upper_i (by decide) (by decide)
  have h1 : ((bi st).filter (· == 0x42)).length ≤ 1 := by rw [fb, List.length_map]; exact h.once.1
  have h2 : ((bi st).filter (· == 0x49)).length ≤ 1 := by rw [fi, List.length_map]; exact h.once.2
  have key := two_letters (bi_letters h.letters) h1 h2
  have any : ∀ (u l : UInt8) (x : Bytes), (if (st.filter fun c => c == u || c == l).map (fun _ => u) ≠ [] then x else []) = if hasLetter st u l then x else [] := by
    intro u l x
    have e : ((st.filter fun c => c == u || c == l).map (fun _ => u) ≠ []) ↔ (hasLetter st u l = true) := by
      unfold hasLetter
      rw [Ne, List.map_eq_nil_iff, List.filter_eq_nil_iff, List.any_eq_true]
      push_neg
      rfl
    by_cases h : hasLetter st u l = true
    · rw [if_pos (e.mpr h), if_pos h]
    · rw [if_neg (fun x => h (e.mp x)), if_neg h]
  rw [fb, fi, any, any] at key
  show (hasLetter st 0x55 0x75, hasLetter st 0x53 0x73, if bi st = B "IB" then B "BI" else bi st) = _
  rw [key]
  rfl

theorem escape_lower (a : Bytes) : toLower (fontFamilyEscape a) = fontFamilyEscape (toLower a) ∧ (fontFamilyEscape a = [] ↔ a = []) := by
  unfold fontFamilyEscape
  have e1 : B " " = [32] := by decide +kernel
  have e2 : B "#20" = [0x23, 0x32, 0x30] := by decide +kernel
  rw [e1, e2, replaceAll_single, replaceAll_single]
  unfold toLower
  constructor
  · induction a with
    | nil => rfl
    | cons c r ih =>
      rw [List.map_cons, List.flatMap_cons, List.flatMap_cons, List.map_append, ih]
      congr 1
      have key : ∀ c : UInt8, List.map (fun c : UInt8 => if 65 ≤ c ∧ c ≤ 90 then c + 32 else c) (if c = 32 then [35, 50, 48] else [c]) =
        if (if 65 ≤ c ∧ c ≤ 90 then c + 32 else c) = 32 then [35, 50, 48] else [if 65 ≤ c ∧ c ≤ 90 then c + 32 else c] := forall_byte (by decide +kernel)
      exact key c
  · constructor
    · intro h
      cases a with
      | nil => rfl
      | cons c r =>
        rw [List.flatMap_cons, List.append_eq_nil_iff] at h
        have h1 := h.1
        split at h1 <;> cases h1
    · rintro rfl; rfl

theorem famOf_case {f : Fpdf} {a b : Bytes} (h : sameCase a b) : famOf f a = famOf f b := by
  have hn : fontFamilyEscape a = [] ↔ fontFamilyEscape b = [] := by
    rw [(escape_lower a).2, (escape_lower b).2]
    have hl := congrArg List.length h
    unfold toLower at hl
    rw [List.length_map, List.length_map] at hl
    rw [← List.length_eq_zero_iff, ← List.length_eq_zero_iff, hl]
  unfold famOf
  rw [(escape_lower a).1, (escape_lower b).1, h]
  by_cases ha : fontFamilyEscape a = []
  · rw [if_pos ha, if_pos (hn.mp ha)]
  · rw [if_neg ha, if_neg fun x => ha (hn.mpr x)]

/-- **C49** Case of the family and case and order of the style letters do not matter: two calls that agree on family up to case and on bold, italic, underline and
strike-out have exactly the same effect. -/
theorem C49_same (E : Ext) (cb : Cb) (f : Fpdf) (fam fam' st st' : Bytes) (sz : Rat) (hf : sameCase fam fam') (hs : StyleOk st) (hs' : StyleOk st') (hb : bold st = bold st')
    (hi : italic st = italic st') (hu : underlined st = underlined st') (hk : struck st = struck st') :
    f.exec E cb (.setFont fam st sz) = f.exec E cb (.setFont fam' st' sz) := by
  have hp : Fpdf.parseStyle st = Fpdf.parseStyle st' := by rw [parse_ok hs, parse_ok hs', hb, hi, hu, hk]
  have hfam := famOf_case (f := f) hf
  unfold famOf at hfam
  show f.setFont E fam st sz = f.setFont E fam' st' sz
  unfold Fpdf.setFont
  dsimp only
  rw [hfam, hp]

/-- The family and style recorded for a request: the family in lower case with spaces written `#20` (the current one if none is given), and the letters B and I. -/
def request (f : Fpdf) (fam st : Bytes) : Bytes × Bytes :=
  (if fam = [] then f.t.fontFamily else toLower (fontFamilyEscape fam), (if bold st then B "B" else []) ++ (if italic st then B "I" else []))

/-- The standard font that stands in for a request when no such font was added: Helvetica for Arial, ZapfDingbats (without style) for Symbol. -/
def core (q : Bytes × Bytes) : Bytes × Bytes := standIn q.1 q.2

/-- What a successful call selects. -/
structure Selected (E : Ext) (f g : Fpdf) (fam st : Bytes) (sz : Rat) : Prop where
  err : g.err = none
  font : (g.t.fontFamily, g.t.fontStyle) = request f fam st ∧ lookup ((request f fam st).1 ++ (request f fam st).2) f.t.fonts = some g.t.currentFont ∨
    lookup ((request f fam st).1 ++ (request f fam st).2) f.t.fonts = none ∧ (g.t.fontFamily, g.t.fontStyle) = core (request f fam st) ∧ g.t.fontFamily ∈ coreFonts
  registered : lookup (g.t.fontFamily ++ g.t.fontStyle) g.t.fonts = some g.t.currentFont
  kept : ∀ k d, lookup k f.t.fonts = some d → lookup k g.t.fonts = some d
  deco : g.t.underline = underlined st ∧ g.t.strikeout = struck st
  size : g.t.fontSizePt = if sz = 0 then f.t.fontSizePt else sz
  utf8 : g.t.isUTF8 = decide (g.t.currentFont.tp = B "UTF8")

theorem request_eq {f : Fpdf} {fam st : Bytes} (hs : StyleOk st) : (famOf f fam, (Fpdf.parseStyle st).2.2) = request f fam st := by
  unfold famOf request
  rw [parse_ok hs]
  congr 1
  by_cases h : fam = []
  · rw [if_pos h, if_pos ((escape_lower fam).2.mpr h)]
  · rw [if_neg h, if_neg fun x => h ((escape_lower fam).2.mp x)]

/-- **C49** In every document that calls can build: `SetFont` selects the font added under the family and style requested; if there is none, the standard font
standing in for it; if that does not exist, the call is an error. Underlining and strike-out follow the letters U and S only. An error leaves font, style, size and page
content unchanged (but underlining and strike-out have been set). -/
theorem C49_setFont {E : Ext} {o u s : Bytes} {usz : Size} {f : Fpdf} (hn : (Fpdf.new o u s usz).err = none) (hr : Reach E noClose (Fpdf.new o u s usz) f) (cb : Cb) (fam st : Bytes)
    (sz : Rat) (he : f.err = none) (hs : StyleOk st) :
    Selected E f (f.exec E cb (.setFont fam st sz)) fam st sz ∨
    (lookup ((request f fam st).1 ++ (request f fam st).2) f.t.fonts = none ∧
      ((core (request f fam st)).1 ∉ coreFonts ∨ E.coreFont ((core (request f fam st)).1 ++ (core (request f fam st)).2) = none) ∧
      ∃ e, f.exec E cb (.setFont fam st sz) = { f with err := some e, t.underline := underlined st, t.strikeout := struck st }) := by
  have ok := (reach_fnt hr).ok (new_fontOk hn)
  have hq := request_eq (f := f) (fam := fam) hs
  have hp := parse_ok hs
  show Selected E f (f.setFont E fam st sz) fam st sz ∨ _ ∧ _ ∧ ∃ e, f.setFont E fam st sz = _
  unfold core
  rcases setFont_full E f fam st sz he ok.fam with ⟨g, fam', st', d, h1, h2, h3, h4, h5, h6, h7, h8⟩ | ⟨e, h1, h2, h3⟩
  · refine .inl ?_
    rw [h6]
    have t := lens_t (selectFont_t g fam' st' (sizeTo f sz) d)
    obtain ⟨t1, t2, t3, t4, t5, t6, t7, t8, t9, t10⟩ := t
    have herr : (g.selectFont fam' st' (sizeTo f sz) d).err = none := by
      have : (g.selectFont fam' st' (sizeTo f sz) d).err = g.err := by
        unfold Fpdf.selectFont Fpdf.outFont Fpdf.outf Fpdf.out
        dsimp only
        split
        · split <;> rfl
        · rfl
      rw [this]; exact h7
    have gu : g.t.underline = (deco f st).t.underline := by have := congrArg (fun f : Fpdf => f.t.underline) h2; exact this
    have gs : g.t.strikeout = (deco f st).t.strikeout := by have := congrArg (fun f : Fpdf => f.t.strikeout) h2; exact this
    generalize g.selectFont fam' st' (sizeTo f sz) d = r at t1 t2 t3 t4 t5 t6 t7 t8 t9 t10 herr ⊢
    dsimp only at t1 t2 t3 t4 t5 t6 t7 t8 t9 t10
    refine ⟨herr, ?_, by rw [t1, t2, t7, t9]; exact h5, fun k x hk => by rw [t9]; exact h1 k x hk, ⟨?_, ?_⟩, ?_, ?_⟩
    · rw [t1, t2, t7, ← hq]
      rcases h8 with ⟨rfl, rfl, h⟩ | ⟨a, b, c⟩
      · exact .inl ⟨rfl, h⟩
      · exact .inr ⟨a, b, c⟩
    · rw [t3, gu]; show (Fpdf.parseStyle st).1 = _; rw [hp]
    · rw [t4, gs]; show (Fpdf.parseStyle st).2.1 = _; rw [hp]
    · rw [t5]; rfl
    · rw [t8, t7]
  · refine .inr ?_
    rw [← hq]
    refine ⟨h2, h3, e, ?_⟩
    rw [h1]
    unfold deco
    rw [hp]

/-- Non-vacuity of C49: `iBu` and `UIB` are the same style; a core font and an unknown one. -/
example : StyleOk (B "iBu") ∧ StyleOk (B "UIB") ∧ sameCase (B "TIMES") (B "times") ∧ (Fpdf.new [] [] [] {}).err = none ∧
    Reach oneFont noClose (Fpdf.new [] [] [] {}) (after (Fpdf.new [] [] [] {}) [.addPage] oneFont) ∧
    ((after (Fpdf.new [] [] [] {}) [.addPage, .setFont (B "TIMES") (B "iBu") 12] oneFont).t.fontFamily, (after (Fpdf.new [] [] [] {}) [.addPage, .setFont (B "TIMES") (B "iBu") 12] oneFont).t.fontStyle) =
      (B "times", B "BI") ∧
    (after (Fpdf.new [] [] [] {}) [.addPage, .setFont (B "Gothic") (B "iBu") 12] oneFont).err ≠ none ∧
    (after (Fpdf.new [] [] [] {}) [.addPage, .setFont (B "Gothic") (B "iBu") 12] oneFont).t.underline = true :=
  ⟨⟨by decide +kernel, by decide +kernel⟩, ⟨by decide +kernel, by decide +kernel⟩, by unfold sameCase; decide +kernel, by decide +kernel, noClose_after _ _ _ (by decide), by decide +kernel, by decide +kernel,
    by decide +kernel⟩

end Verif.Props
