import Verif.Proof.Settings
/-
Font selection: the selected font is always the one registered under its family and style.
-/
namespace Verif.Proof
open Verif Verif.Model Verif.Spec

/-- Fonts once registered stay as they are. -/
def FntLe (f g : Fpdf) : Prop := ∀ k d, lookup k f.t.fonts = some d → lookup k g.t.fonts = some d

/-- A family as `SetFont` records it. -/
structure NormFam (fam : Bytes) : Prop where
  lower : toLower fam = fam
  nospace : (32 : UInt8) ∉ fam

/-- A style as `SetFont` records it. -/
structure NormStyle (st : Bytes) : Prop where
  upper : toUpper st = st
  nou : (0x55 : UInt8) ∉ st
  nos : (0x53 : UInt8) ∉ st
  order : st ≠ B "IB"

/-- The font selected is the one registered under its name. -/
structure FontOk (f : Fpdf) : Prop where
  k : f.k ≠ 0
  size : f.t.fontSize = f.t.fontSizePt / f.k
  fam : NormFam f.t.fontFamily
  sel : f.t.fontFamily ≠ [] → NormStyle f.t.fontStyle ∧ lookup (f.t.fontFamily ++ f.t.fontStyle) f.t.fonts = some f.t.currentFont ∧
    f.t.isUTF8 = decide (f.t.currentFont.tp = B "UTF8")

theorem FntLe.refl (f : Fpdf) : FntLe f f := fun _ _ h => h
theorem FntLe.trans {f g h : Fpdf} (a : FntLe f g) (b : FntLe g h) : FntLe f h := fun k d x => b k d (a k d x)

/-- A statement about bytes is a statement about 256 numbers. -/
theorem forall_byte {p : UInt8 → Prop} (h : ∀ n < 256, p (UInt8.ofNat n)) (c : UInt8) : p c := by
  have := h c.toNat c.toNat_lt
  rwa [UInt8.ofNat_toNat] at this

theorem lower_lower (s : Bytes) : toLower (toLower s) = toLower s := by
  unfold toLower
  rw [List.map_map]
  refine List.map_congr_left fun c _ => ?_
  have : ∀ d : UInt8, (if 65 ≤ (if 65 ≤ d ∧ d ≤ 90 then d + 32 else d) ∧ (if 65 ≤ d ∧ d ≤ 90 then d + 32 else d) ≤ 90 then (if 65 ≤ d ∧ d ≤ 90 then d + 32 else d) + 32 else (if 65 ≤ d ∧ d ≤ 90 then d + 32 else d)) = (if 65 ≤ d ∧ d ≤ 90 then d + 32 else d) := forall_byte (by decide +kernel)
  exact this c

theorem upper_upper (s : Bytes) : toUpper (toUpper s) = toUpper s := by
  unfold toUpper
  rw [List.map_map]
  refine List.map_congr_left fun c _ => ?_
  have : ∀ d : UInt8, (if 97 ≤ (if 97 ≤ d ∧ d ≤ 122 then d - 32 else d) ∧ (if 97 ≤ d ∧ d ≤ 122 then d - 32 else d) ≤ 122 then (if 97 ≤ d ∧ d ≤ 122 then d - 32 else d) - 32 else (if 97 ≤ d ∧ d ≤ 122 then d - 32 else d)) = (if 97 ≤ d ∧ d ≤ 122 then d - 32 else d) := forall_byte (by decide +kernel)
  exact this c

theorem upper_fix {s : Bytes} (h : toUpper s = s) : ∀ c ∈ s, (if 97 ≤ c ∧ c ≤ 122 then c - 32 else c) = c := by
  unfold toUpper at h
  intro c hc; exact List.map_inj_left.mp (h.trans (List.map_id s).symm) c hc
theorem upper_of_fix {s : Bytes} (h : ∀ c ∈ s, (if 97 ≤ c ∧ c ≤ 122 then c - 32 else c) = c) : toUpper s = s :=
  (List.map_congr_left h).trans (List.map_id s)
theorem upper_filter {s : Bytes} (h : toUpper s = s) (p : UInt8 → Bool) : toUpper (s.filter p) = s.filter p :=
  upper_of_fix fun c hc => upper_fix h c (List.mem_filter.mp hc).1
theorem upper_append (a b : Bytes) : toUpper (a ++ b) = toUpper a ++ toUpper b := List.map_append ..

theorem remove_eq (c : UInt8) (s : Bytes) : replaceAll [c] [] s = s.filter (· ≠ c) := by
  rw [replaceAll_single]
  induction s with
  | nil => rfl
  | cons a s ih => rw [List.flatMap_cons, List.filter_cons, ih]; by_cases h : a = c <;> simp [h]

theorem remove_if (c : UInt8) (s : Bytes) : (if s.contains c then replaceAll [c] [] s else s) = s.filter (· ≠ c) := by
  split
  · exact remove_eq c s
  · next h =>
    symm
    rw [List.filter_eq_self]
    intro a ha
    simp only [List.contains_iff_mem] at h
    simp only [ne_eq, decide_eq_true_eq]
    rintro rfl
    exact h ha

/-- What `SetFont` makes of its style argument. -/
theorem parseStyle_eq (st : Bytes) : Fpdf.parseStyle st = ((toUpper st).contains 0x55, (toUpper st).contains 0x53,
    if ((toUpper st).filter (· ≠ 0x55)).filter (· ≠ 0x53) = B "IB" then B "BI" else ((toUpper st).filter (· ≠ 0x55)).filter (· ≠ 0x53)) := by
  unfold Fpdf.parseStyle
  dsimp only
  have e1 : B "U" = [0x55] := by decide +kernel
  have e2 : B "S" = [0x53] := by decide +kernel
  rw [e1, e2, remove_if 0x55, remove_if 0x53]
  have e3 : ((toUpper st).filter (· ≠ (0x55 : UInt8))).contains 0x53 = (toUpper st).contains 0x53 := by
    rw [Bool.eq_iff_iff, List.contains_iff_mem, List.contains_iff_mem, List.mem_filter]
    simp
  rw [e3]

theorem normStyle_parse (st : Bytes) : NormStyle (Fpdf.parseStyle st).2.2 := by
  rw [parseStyle_eq]
  dsimp only
  split
  · exact ⟨by decide +kernel, by decide +kernel, by decide +kernel, by decide +kernel⟩
  · next h => exact ⟨upper_filter (upper_filter (upper_upper st) _) _, by simp, by simp, h⟩

/-- The style of a saved font, decorations included, is read back as it was. -/
theorem parseStyle_back {st : Bytes} (h : NormStyle st) (u s : Bool) :
    Fpdf.parseStyle (st ++ (if u then B "U" else []) ++ (if s then B "S" else [])) = (u, s, st) := by
  rw [parseStyle_eq]
  have e : toUpper (st ++ (if u then B "U" else []) ++ (if s then B "S" else [])) = st ++ (if u then [0x55] else []) ++ (if s then [0x53] else []) := by
    rw [upper_append, upper_append, h.upper]
    congr 1
    · congr 1
      cases u <;> decide +kernel
    · cases s <;> decide +kernel
  rw [e]
  have hu := h.nou
  have hs := h.nos
  have f1 : st.filter (fun x => !decide (x = (0x55 : UInt8))) = st := by rw [List.filter_eq_self]; intro a ha; simp only [Bool.not_eq_true', decide_eq_false_iff_not]; rintro rfl; exact hu ha
  have f2 : st.filter (fun x => !decide (x = (0x53 : UInt8))) = st := by rw [List.filter_eq_self]; intro a ha; simp only [Bool.not_eq_true', decide_eq_false_iff_not]; rintro rfl; exact hs ha
  have c1 : st.contains 0x55 = false := by rw [Bool.eq_false_iff]; intro hc; exact hu (List.contains_iff_mem.mp hc)
  have c2 : st.contains 0x53 = false := by rw [Bool.eq_false_iff]; intro hc; exact hs (List.contains_iff_mem.mp hc)
  cases u <;> cases s <;> simp [List.filter_append, f1, f2, h.order, hu, hs, -List.filter_filter]

theorem escape_nospace (s : Bytes) : (32 : UInt8) ∉ fontFamilyEscape s := by
  unfold fontFamilyEscape
  have e1 : B " " = [32] := by decide +kernel
  have e2 : B "#20" = [0x23, 0x32, 0x30] := by decide +kernel
  rw [e1, e2, replaceAll_single]
  intro h
  obtain ⟨c, _, hc⟩ := List.mem_flatMap.mp h
  split at hc
  · revert hc; decide
  · next hne => exact hne (by exact (List.mem_singleton.mp hc).symm)

theorem escape_id {s : Bytes} (h : (32 : UInt8) ∉ s) : fontFamilyEscape s = s := by
  unfold fontFamilyEscape
  have e1 : B " " = [32] := by decide +kernel
  rw [e1, replaceAll_single]
  induction s with
  | nil => rfl
  | cons a s ih =>
    rw [List.flatMap_cons, ih (fun hm => h (List.mem_cons_of_mem _ hm)), if_neg (by rintro rfl; exact h List.mem_cons_self)]
    rfl

theorem lower_nospace {s : Bytes} (h : (32 : UInt8) ∉ s) : (32 : UInt8) ∉ toLower s := by
  unfold toLower
  intro hm
  obtain ⟨c, hc, e⟩ := List.mem_map.mp hm
  have : ∀ d : UInt8, (if 65 ≤ d ∧ d ≤ 90 then d + 32 else d) = 32 → d = 32 := forall_byte (by decide +kernel)
  exact h (this c e ▸ hc)

theorem normFam_of (fam : Bytes) : NormFam (toLower (fontFamilyEscape fam)) :=
  ⟨lower_lower _, lower_nospace (escape_nospace fam)⟩

theorem normFam_nil : NormFam [] := ⟨rfl, by simp⟩

theorem normFam_core {fam : Bytes} (h : fam ∈ coreFonts) : NormFam fam := by
  have : ∀ a ∈ coreFonts, toLower a = a ∧ (32 : UInt8) ∉ a := by decide +kernel
  exact ⟨(this fam h).1, (this fam h).2⟩

/-- The key a core font is registered under. -/
theorem getFontKey_norm {fam st : Bytes} (hf : NormFam fam) (hs : NormStyle st) : getFontKey (fontFamilyEscape fam) st = fam ++ st := by
  unfold getFontKey
  dsimp only
  rw [escape_id hf.nospace, hf.lower, hs.upper, if_neg hs.order]

theorem addFontDef_le (E : Ext) (f : Fpdf) (fam st : Bytes) (info : Option FontDef) (ff : FontFile) : FntLe f (f.addFontDef E fam st info ff) := by
  intro k d hk
  unfold Fpdf.addFontDef
  split
  · exact hk
  · dsimp only
    split
    · exact hk
    · next hn =>
      split
      · exact hk
      · dsimp only
        have key : ∀ (l : List (Bytes × FontDef)) (x : FontDef), l = f.t.fonts → lookup k (Model.insert (getFontKey (fontFamilyEscape fam) st) x l) = some d :=
          fun l x hl => by rw [hl]; exact lookup_insert_fresh hn hk
        split <;> split <;> first | exact key _ _ rfl | (split <;> exact key _ _ rfl)

theorem addUTF8Font_le (E : Ext) (f : Fpdf) (fam st file : Bytes) (info : Option FontDef) (ff : Bool) : FntLe f (f.addUTF8Font E fam st file info ff) := by
  intro k d hk
  unfold Fpdf.addUTF8Font
  split
  · exact hk
  · dsimp only
    split
    · exact hk
    · next hn =>
      split
      · split
        · unfold Fpdf.setErrorf; split <;> exact hk
        · exact hk
      · split <;> exact lookup_insert_fresh hn hk

/-- Adding a font definition with a new name registers it. -/
theorem addFontDef_hit (E : Ext) (f : Fpdf) (fam st : Bytes) (d : FontDef) (ff : FontFile) (he : f.err = none)
    (hn : lookup (getFontKey (fontFamilyEscape fam) st) f.t.fonts = none) :
    ∃ d', lookup (getFontKey (fontFamilyEscape fam) st) (f.addFontDef E fam st (some d) ff).t.fonts = some d' := by
  unfold Fpdf.addFontDef
  rw [if_neg (by simp [he])]
  dsimp only
  rw [hn]
  dsimp only
  split <;> split <;> exact ⟨_, lookup_insert_self _ _ _⟩

/-- The family `SetFont` looks for. -/
def famOf (f : Fpdf) (fam : Bytes) : Bytes := if fontFamilyEscape fam = [] then f.t.fontFamily else toLower (fontFamilyEscape fam)

/-- The size `SetFont` selects. -/
def sizeTo (f : Fpdf) (sz : Rat) : Rat := if sz = 0 then f.t.fontSizePt else sz

/-- The document with the decorations of a style set. -/
def deco (f : Fpdf) (st : Bytes) : Fpdf := { f with t.underline := (Fpdf.parseStyle st).1, t.strikeout := (Fpdf.parseStyle st).2.1 }

theorem famOf_norm {f : Fpdf} (h : NormFam f.t.fontFamily) (fam : Bytes) : NormFam (famOf f fam) := by
  unfold famOf
  split
  · exact h
  · exact normFam_of fam

/-- The core font family that stands for another one, and its style. -/
def standIn (fam st : Bytes) : Bytes × Bytes :=
  if fam = B "arial" then (B "helvetica", st) else if fam = B "symbol" ∨ fam = B "zapfdingbats" then (B "zapfdingbats", []) else (fam, st)

/-- `SetFont` either selects a registered font or records an error. -/
theorem setFont_full (E : Ext) (f : Fpdf) (fam st : Bytes) (sz : Rat) (he : f.err = none) (hf : NormFam f.t.fontFamily) :
    (∃ (g : Fpdf) (fam' st' : Bytes) (d : FontDef), FntLe f g ∧ inkFonts g = inkFonts (deco f st) ∧ NormFam fam' ∧ NormStyle st' ∧ lookup (fam' ++ st') g.t.fonts = some d ∧
        f.setFont E fam st sz = g.selectFont fam' st' (sizeTo f sz) d ∧ g.err = none ∧
        ((fam' = famOf f fam ∧ st' = (Fpdf.parseStyle st).2.2 ∧ lookup (famOf f fam ++ (Fpdf.parseStyle st).2.2) f.t.fonts = some d) ∨
          (lookup (famOf f fam ++ (Fpdf.parseStyle st).2.2) f.t.fonts = none ∧ (fam', st') = standIn (famOf f fam) (Fpdf.parseStyle st).2.2 ∧ fam' ∈ coreFonts))) ∨
    (∃ e, f.setFont E fam st sz = { deco f st with err := some e } ∧ lookup (famOf f fam ++ (Fpdf.parseStyle st).2.2) f.t.fonts = none ∧
      ((standIn (famOf f fam) (Fpdf.parseStyle st).2.2).1 ∉ coreFonts ∨
        E.coreFont ((standIn (famOf f fam) (Fpdf.parseStyle st).2.2).1 ++ (standIn (famOf f fam) (Fpdf.parseStyle st).2.2).2) = none)) := by
  unfold Fpdf.setFont
  rw [if_neg (by simp [he])]
  have hfam := famOf_norm hf fam
  have hst := normStyle_parse st
  unfold famOf at hfam ⊢
  dsimp only
  generalize (if fontFamilyEscape fam = [] then f.t.fontFamily else toLower (fontFamilyEscape fam)) = fam at hfam ⊢
  unfold deco
  generalize Fpdf.parseStyle st = q at hst ⊢
  obtain ⟨u, s, st⟩ := q
  dsimp only at hst ⊢
  generalize hgd : ({ f with t.underline := u, t.strikeout := s } : Fpdf) = g
  have hg0 : FntLe f g := by rw [← hgd]; exact FntLe.refl f
  have hg1 : g.err = none := by rw [← hgd]; exact he
  have hgf : f.t.fonts = g.t.fonts := by rw [← hgd]
  have hg2 : (if sz = 0 then f.t.fontSizePt else sz) = sizeTo f sz := rfl
  have hge : ∀ e, ({ g with err := some e } : Fpdf) = { f with err := some e, t.underline := u, t.strikeout := s } := fun e => by rw [← hgd]
  rw [hg2, hgf]
  have hsi : standIn fam st = ((if (if fam = B "arial" then B "helvetica" else fam) = B "symbol" then B "zapfdingbats" else (if fam = B "arial" then B "helvetica" else fam)),
      if (if (if fam = B "arial" then B "helvetica" else fam) = B "symbol" then B "zapfdingbats" else (if fam = B "arial" then B "helvetica" else fam)) = B "zapfdingbats" then [] else st) := by
    have h1 : B "helvetica" ≠ B "symbol" := by decide +kernel
    have h2 : B "helvetica" ≠ B "zapfdingbats" := by decide +kernel
    have h3 : B "arial" ≠ B "symbol" := by decide +kernel
    have h4 : B "arial" ≠ B "zapfdingbats" := by decide +kernel
    unfold standIn
    by_cases ha : fam = B "arial"
    · simp only [ha, if_true, h1, h2, if_false]
    · by_cases hb : fam = B "symbol"
      · simp only [ha, hb, if_true, if_false, true_or, h3.symm]
      · by_cases hc : fam = B "zapfdingbats"
        · simp only [ha, hb, hc, if_true, if_false, or_true, h4.symm, ite_self]
        · simp only [ha, hb, hc, if_false, or_false]
  rw [hsi]
  clear hsi
  generalize hfam2 : (if fam = B "arial" then B "helvetica" else fam) = fam2
  split
  · next d hd => exact .inl ⟨g, fam, st, d, hg0, rfl, hfam, hst, hd, rfl, hg1, .inl ⟨rfl, rfl, hd⟩⟩
  · next hn0 =>
    have core3 : fam2 ∈ coreFonts → (if fam2 = B "symbol" then B "zapfdingbats" else fam2) ∈ coreFonts := fun hc => by
      split
      · decide +kernel
      · exact hc
    split
    · next hc =>
      have core3 := core3 hc
      generalize hfam3 : (if fam2 = B "symbol" then B "zapfdingbats" else fam2) = fam3 at core3 ⊢
      generalize hst3 : (if fam3 = B "zapfdingbats" then [] else st) = st3
      have n3 : NormFam fam3 := by
        rw [← hfam3]
        split
        · exact normFam_core (by decide +kernel)
        · exact normFam_core hc
      have s3 : NormStyle st3 := by
        rw [← hst3]
        split
        · exact ⟨by decide +kernel, by decide +kernel, by decide +kernel, by decide +kernel⟩
        · exact hst
      split
      · next d hd => exact .inl ⟨g, fam3, st3, d, hg0, rfl, n3, s3, hd, rfl, hg1, .inr ⟨hn0, rfl, core3⟩⟩
      · next hn =>
        cases E.coreFont (fam3 ++ st3) with
        | none =>
          refine .inr ⟨"could not locate font among embedded core font definition files", ?_, hn0, .inr rfl⟩
          dsimp only
          unfold Fpdf.setErrorf
          rw [hg1]
          dsimp only
          rw [← hgf]
          exact hge _
        | some d =>
          dsimp only
          have hk := getFontKey_norm n3 s3
          obtain ⟨d', hd'⟩ := addFontDef_hit E g fam3 st3 d {} hg1 (by rw [hk]; exact hn)
          rw [hk] at hd'
          have hi := addFontDef_ink E g fam3 st3 (some d) {}
          have hl := addFontDef_le E g fam3 st3 (some d) {}
          have herr : (g.addFontDef E fam3 st3 (some d) {}).err = none := by
            unfold Fpdf.addFontDef
            rw [if_neg (by simp [hg1])]
            dsimp only
            rw [hk, hn]
            dsimp only
            split <;> split <;> first | exact hg1 | (split <;> exact hg1)
          generalize g.addFontDef E fam3 st3 (some d) {} = g2 at hd' hi hl herr ⊢
          rw [if_neg (by simp [herr]), hd']
          exact .inl ⟨g2, fam3, st3, d', hg0.trans hl, hi, n3, s3, hd', rfl, herr, .inr ⟨hn0, rfl, core3⟩⟩
    · next hc =>
      refine .inr ⟨"undefined font", by rw [← hgf]; exact hge _, hn0, .inl ?_⟩
      dsimp only
      split
      · next h => exact fun _ => hc (by rw [h]; decide +kernel)
      · exact hc

theorem setFont_cases (E : Ext) (f : Fpdf) (fam st : Bytes) (sz : Rat) (he : f.err = none) (hf : NormFam f.t.fontFamily) :
    (∃ (g : Fpdf) (fam' st' : Bytes) (d : FontDef), FntLe f g ∧ inkFonts g = inkFonts (deco f st) ∧ NormFam fam' ∧ NormStyle st' ∧ lookup (fam' ++ st') g.t.fonts = some d ∧
        f.setFont E fam st sz = g.selectFont fam' st' (sizeTo f sz) d) ∨
    (∃ e, f.setFont E fam st sz = { deco f st with err := some e }) := by
  rcases setFont_full E f fam st sz he hf with ⟨g, a, b, d, h1, h2, h3, h4, h5, h6, -⟩ | ⟨e, h, -⟩
  · exact .inl ⟨g, a, b, d, h1, h2, h3, h4, h5, h6⟩
  · exact .inr ⟨e, h⟩

theorem lens_t {f g : Fpdf} (h : lens g = lens f) : g.t.fontFamily = f.t.fontFamily ∧ g.t.fontStyle = f.t.fontStyle ∧ g.t.underline = f.t.underline ∧
    g.t.strikeout = f.t.strikeout ∧ g.t.fontSizePt = f.t.fontSizePt ∧ g.t.fontSize = f.t.fontSize ∧ g.t.currentFont = f.t.currentFont ∧
    g.t.isUTF8 = f.t.isUTF8 ∧ g.t.fonts = f.t.fonts ∧ g.k = f.k := by
  have h1 := congrArg (fun x : TextSt × ColorSt × LineSt × Rat => x.1) h
  have get := fun {α : Type} (q : TextSt → α) => congrArg q h1
  exact ⟨get (·.fontFamily), get (·.fontStyle), get (·.underline), get (·.strikeout), get (·.fontSizePt), get (·.fontSize), get (·.currentFont), get (·.isUTF8), get (·.fonts),
    congrArg (fun x : TextSt × ColorSt × LineSt × Rat => x.2.2.2) h⟩

theorem FontOk.same {f g : Fpdf} (h : lens g = lens f) (hf : FontOk f) : FontOk g := by
  obtain ⟨e1, e2, e3, e4, e5, e6, e7, e8, e9, e10⟩ := lens_t h
  refine ⟨by rw [e10]; exact hf.k, by rw [e5, e6, e10]; exact hf.size, by rw [e1]; exact hf.fam, ?_⟩
  rw [e1, e2, e7, e8, e9]; exact hf.sel
theorem FntLe.same {f g : Fpdf} (h : lens g = lens f) : FntLe f g := by
  obtain ⟨-, -, -, -, -, -, -, -, e9, -⟩ := lens_t h
  intro k d; rw [e9]; exact id

/-- What a font selection leaves. -/
theorem selectFont_t (f : Fpdf) (fam st : Bytes) (sz : Rat) (d : FontDef) :
    lens (f.selectFont fam st sz d) = lens { f with t.fontFamily := fam, t.fontStyle := st, t.fontSizePt := sz, t.fontSize := sz / f.k, t.currentFont := d, t.isUTF8 := d.tp = B "UTF8" } := by
  unfold Fpdf.selectFont
  exact lens_ink (outFont_ink _)

/-- Fonts stay registered, and the selected font stays the registered one. -/
structure Fnt (f g : Fpdf) : Prop where
  le : FontOk f → FntLe f g
  ok : FontOk f → FontOk g
  k : g.k = f.k

theorem Fnt.refl (f : Fpdf) : Fnt f f := ⟨fun _ => FntLe.refl f, id, rfl⟩
theorem Fnt.trans {f g h : Fpdf} (a : Fnt f g) (b : Fnt g h) : Fnt f h := ⟨fun x => (a.le x).trans (b.le (a.ok x)), fun x => b.ok (a.ok x), b.k.trans a.k⟩
theorem Fnt.same {f g : Fpdf} (h : lens g = lens f) : Fnt f g := ⟨fun _ => FntLe.same h, FontOk.same h, congrArg (fun x : TextSt × ColorSt × LineSt × Rat => x.2.2.2) h⟩

/-- A change of other settings. -/
theorem Fnt.upd {f g : Fpdf} (h : (lens g).1 = (lens f).1) (hk : g.k = f.k) : Fnt f g := by
  have get := fun {α : Type} (q : TextSt → α) => congrArg q h
  have e1 : g.t.fontFamily = f.t.fontFamily := get (·.fontFamily)
  have e2 : g.t.fontStyle = f.t.fontStyle := get (·.fontStyle)
  have e5 : g.t.fontSizePt = f.t.fontSizePt := get (·.fontSizePt)
  have e6 : g.t.fontSize = f.t.fontSize := get (·.fontSize)
  have e7 : g.t.currentFont = f.t.currentFont := get (·.currentFont)
  have e8 : g.t.isUTF8 = f.t.isUTF8 := get (·.isUTF8)
  have e9 : g.t.fonts = f.t.fonts := get (·.fonts)
  refine ⟨fun _ k d => by rw [e9]; exact id, fun hf => ⟨by rw [hk]; exact hf.k, by rw [e5, e6, hk]; exact hf.size, by rw [e1]; exact hf.fam, ?_⟩, hk⟩
  rw [e1, e2, e7, e8, e9]; exact hf.sel

theorem Fnt.fonts {f g : Fpdf} (hi : inkFonts g = inkFonts f) (hl : FntLe f g) : Fnt f g := by
  have hk : g.k = f.k := by have e := congrArg (fun f : Fpdf => f.k) hi; exact e
  refine ⟨fun _ => hl, fun hf => ?_, hk⟩
  have get := fun {α : Type} (q : Fpdf → α) => congrArg q hi
  have e1 : g.t.fontFamily = f.t.fontFamily := get (·.t.fontFamily)
  have e2 : g.t.fontStyle = f.t.fontStyle := get (·.t.fontStyle)
  have e5 : g.t.fontSizePt = f.t.fontSizePt := get (·.t.fontSizePt)
  have e6 : g.t.fontSize = f.t.fontSize := get (·.t.fontSize)
  have e7 : g.t.currentFont = f.t.currentFont := get (·.t.currentFont)
  have e8 : g.t.isUTF8 = f.t.isUTF8 := get (·.t.isUTF8)
  refine ⟨by rw [hk]; exact hf.k, by rw [e5, e6, hk]; exact hf.size, by rw [e1]; exact hf.fam, ?_⟩
  rw [e1, e2, e7, e8]
  exact fun hne => ⟨(hf.sel hne).1, hl _ _ (hf.sel hne).2.1, (hf.sel hne).2.2⟩

theorem selectFont_ok (g : Fpdf) (fam st : Bytes) (sz : Rat) (d : FontDef) (hk : g.k ≠ 0) (hf : NormFam fam) (hs : NormStyle st)
    (hd : lookup (fam ++ st) g.t.fonts = some d) : FontOk (g.selectFont fam st sz d) :=
  FontOk.same (selectFont_t g fam st sz d) ⟨hk, rfl, hf, fun _ => ⟨hs, hd, rfl⟩⟩

theorem selectFont_le (g : Fpdf) (fam st : Bytes) (sz : Rat) (d : FontDef) : FntLe g (g.selectFont fam st sz d) :=
  FntLe.trans (g := { g with t.fontFamily := fam, t.fontStyle := st, t.fontSizePt := sz, t.fontSize := sz / g.k, t.currentFont := d, t.isUTF8 := d.tp = B "UTF8" })
    (fun _ _ h => h) (FntLe.same (selectFont_t g fam st sz d))

theorem setFont_le (E : Ext) (f : Fpdf) (fam st : Bytes) (sz : Rat) (hf : NormFam f.t.fontFamily) : FntLe f (f.setFont E fam st sz) := by
  by_cases he : f.err = none
  · rcases setFont_cases E f fam st sz he hf with ⟨g, fam', st', d, h1, -, -, -, -, h6⟩ | ⟨e, h⟩
    · rw [h6]; exact h1.trans (selectFont_le _ _ _ _ _)
    · rw [h]; exact fun _ _ x => x
  · have : f.setFont E fam st sz = f := by unfold Fpdf.setFont; rw [if_pos he]
    rw [this]; exact FntLe.refl f

theorem setFont_ok (E : Ext) (f : Fpdf) (fam st : Bytes) (sz : Rat) (hf : FontOk f) : FontOk (f.setFont E fam st sz) := by
  by_cases he : f.err = none
  · rcases setFont_cases E f fam st sz he hf.fam with ⟨g, fam', st', d, h1, h2, h3, h4, h5, h6⟩ | ⟨e, h⟩
    · rw [h6]
      refine selectFont_ok g _ _ _ _ ?_ h3 h4 h5
      have e := congrArg (fun f : Fpdf => f.k) h2
      have : g.k = f.k := e
      rw [this]; exact hf.k
    · rw [h]; exact ⟨hf.k, hf.size, hf.fam, hf.sel⟩
  · have : f.setFont E fam st sz = f := by unfold Fpdf.setFont; rw [if_pos he]
    rw [this]; exact hf

theorem setFont_fnt (E : Ext) (f : Fpdf) (fam st : Bytes) (sz : Rat) : Fnt f (f.setFont E fam st sz) :=
  ⟨fun h => setFont_le E f fam st sz h.fam, setFont_ok E f fam st sz, by have e := congrArg (fun f : Fpdf => f.k) (setFont_ink E f fam st sz); exact e⟩

theorem beginpage_lens (f : Fpdf) (o : Bytes) (sz : Size) (he : f.err = none) : lens (f.beginpage o sz) = lens { f with t.fontFamily := [] } := by
  unfold Fpdf.beginpage
  rw [if_neg (by simp [he])]
  dsimp only
  generalize Fpdf.orientLetter _ o = o'
  split <;> split <;> rfl

theorem beginpage_fnt (f : Fpdf) (o : Bytes) (sz : Size) : Fnt f (f.beginpage o sz) := by
  by_cases he : f.err = none
  · refine Fnt.trans (g := { f with t.fontFamily := [] }) ⟨fun _ _ _ h => h, fun h => ⟨h.k, h.size, normFam_nil, fun hne => absurd rfl hne⟩, rfl⟩ (Fnt.same (beginpage_lens f o sz he))
  · rw [beginpage_of_err f o sz he]; exact Fnt.refl f

theorem lens_parts {f g : Fpdf} (h : lens g = lens f) : (lens g).1 = (lens f).1 ∧ g.c = f.c ∧ g.line = f.line ∧ g.k = f.k :=
  ⟨congrArg (fun x : TextSt × ColorSt × LineSt × Rat => x.1) h, congrArg (fun x : TextSt × ColorSt × LineSt × Rat => x.2.1) h,
    congrArg (fun x : TextSt × ColorSt × LineSt × Rat => x.2.2.1) h, congrArg (fun x : TextSt × ColorSt × LineSt × Rat => x.2.2.2) h⟩

theorem lens_outputDash (f : Fpdf) : lens f.outputDashPattern = lens f := lens_out f _

/-- What the line styles at the start of a page leave. -/
theorem pageLines_lens (f : Fpdf) (lw : Rat) : lens (f.pageLines lw) = lens { f with line.width := lw } := by
  unfold Fpdf.pageLines
  dsimp only
  generalize hg : Fpdf.outf (Fpdf.outf f _ _) _ _ = g
  have e : lens g = lens f := by rw [← hg]; exact (lens_out _ _).trans (lens_out _ _)
  have e2 : lens ({ g with line.width := lw } : Fpdf) = lens { f with line.width := lw } :=
    congrArg (fun x : TextSt × ColorSt × LineSt × Rat => (x.1, x.2.1, ({ x.2.2.1 with width := lw } : LineSt), x.2.2.2)) e
  split
  · exact (lens_outputDash _).trans ((lens_out _ _).trans e2)
  · exact (lens_out _ _).trans e2

theorem pageColors_lens (f : Fpdf) (s : Fpdf.Saved) : lens (f.pageColors s) = lens { f with c := { draw := s.dc, fill := s.fc, text := s.tc, colorFlag := s.cf } } := by
  unfold Fpdf.pageColors
  dsimp only
  generalize hg : (if s.dc.str ≠ B "0 G" then Fpdf.out { f with c.draw := s.dc } s.dc.str else { f with c.draw := s.dc }) = g
  have e : lens g = lens { f with c.draw := s.dc } := by rw [← hg]; split <;> first | exact lens_out _ _ | rfl
  generalize hg2 : (if s.fc.str ≠ B "0 g" then Fpdf.out { g with c.fill := s.fc } s.fc.str else { g with c.fill := s.fc }) = g2
  have e2 : lens g2 = lens { g with c.fill := s.fc } := by rw [← hg2]; split <;> first | exact lens_out _ _ | rfl
  obtain ⟨t1, c1, l1, k1⟩ := lens_parts e
  obtain ⟨t2, c2, l2, k2⟩ := lens_parts e2
  refine Prod.ext (t2.trans t1) (Prod.ext ?_ (Prod.ext (l2.trans l1) (k2.trans k1)))
  show ({ g2.c with text := s.tc, colorFlag := s.cf } : ColorSt) = _
  rw [c2]
  dsimp only
  rw [c1]
  rfl

theorem restoreLine_lens (f : Fpdf) (s : Fpdf.Saved) : lens (f.restoreLine s) = lens { f with line.width := s.lw } := by
  unfold Fpdf.restoreLine
  split
  · exact lens_out _ _
  · next h => rw [not_not] at h; rw [← h]

theorem restoreColors_lens (f : Fpdf) (s : Fpdf.Saved) : lens (f.restoreColors s) =
    lens { f with c := { draw := if f.c.draw.str ≠ s.dc.str then s.dc else f.c.draw, fill := if f.c.fill.str ≠ s.fc.str then s.fc else f.c.fill, text := s.tc, colorFlag := s.cf } } := by
  unfold Fpdf.restoreColors
  dsimp only
  generalize hg : (if f.c.draw.str ≠ s.dc.str then Fpdf.out { f with c.draw := s.dc } s.dc.str else f) = g
  have e : lens g = lens { f with c.draw := if f.c.draw.str ≠ s.dc.str then s.dc else f.c.draw } := by
    rw [← hg]; split
    · exact lens_out _ _
    · rfl
  generalize hg2 : (if g.c.fill.str ≠ s.fc.str then Fpdf.out { g with c.fill := s.fc } s.fc.str else g) = g2
  have e2 : lens g2 = lens { g with c.fill := if g.c.fill.str ≠ s.fc.str then s.fc else g.c.fill } := by
    rw [← hg2]; split
    · exact lens_out _ _
    · rfl
  obtain ⟨t1, c1, l1, k1⟩ := lens_parts e
  obtain ⟨t2, c2, l2, k2⟩ := lens_parts e2
  refine Prod.ext (t2.trans t1) (Prod.ext ?_ (Prod.ext (l2.trans l1) (k2.trans k1)))
  show ({ g2.c with text := s.tc, colorFlag := s.cf } : ColorSt) = _
  rw [c2]
  dsimp only
  rw [c1]
  rfl

theorem restoreFont_fnt (E : Ext) (f : Fpdf) (s : Fpdf.Saved) : Fnt f (f.restoreFont E s) := by
  unfold Fpdf.restoreFont
  split
  · exact setFont_fnt E f _ _ _
  · exact Fnt.refl f

theorem Fnt.lensRel {E : Ext} {cb : Cb} (h : Cb.Rel (fun _ => True) Fnt cb) : LensRel E cb Fnt :=
  ⟨fun _ _ _ => Fnt.trans, fun _ _ => Fnt.same, h⟩

/-- Up to the header function. -/
def front (E : Ext) (cb : Cb) (f : Fpdf) (o : Bytes) (sz : Size) : Fpdf :=
  Fpdf.restoreFont E (Fpdf.pageLines ((f.leavePage cb).beginpage o sz) f.save.lw) f.save

/-- After the header function. -/
def back (E : Ext) (cb : Cb) (g : Fpdf) (s : Fpdf.Saved) : Fpdf := Fpdf.restoreFont E (((g.pageColors s).runHeader cb).restoreLine s) s

theorem addPageFormat_eq (E : Ext) (cb : Cb) (f : Fpdf) (o : Bytes) (sz : Size) : f.addPageFormat E cb o sz =
    if f.err ≠ none then f
    else if f.save.family ≠ [] ∧ (front E cb f o sz).err ≠ none then front E cb f o sz
    else if f.save.family ≠ [] ∧ (back E cb (front E cb f o sz) f.save).err ≠ none then back E cb (front E cb f o sz) f.save
    else (back E cb (front E cb f o sz) f.save).restoreColors f.save := rfl

theorem front_fnt {E : Ext} {cb : Cb} (h : Cb.Rel (fun _ => True) Fnt cb) (f : Fpdf) (o : Bytes) (sz : Size) : Fnt f (front E cb f o sz) := by
  refine (((Fnt.lensRel (E := E) h).leavePage f).trans (beginpage_fnt _ o sz)).trans (Fnt.trans (Fnt.upd ?_ ?_) (restoreFont_fnt E _ _))
  · rw [pageLines_lens]; rfl
  · exact (lens_parts (pageLines_lens ((f.leavePage cb).beginpage o sz) f.save.lw)).2.2.2

theorem back_fnt {E : Ext} {cb : Cb} (h : Cb.Rel (fun _ => True) Fnt cb) (g : Fpdf) (s : Fpdf.Saved) : Fnt g (back E cb g s) := by
  refine Fnt.trans (Fnt.trans (Fnt.trans (Fnt.upd ?_ ?_) ((Fnt.lensRel (E := E) h).runHeader (g.pageColors s))) (Fnt.upd ?_ ?_)) (restoreFont_fnt E _ _)
  · rw [pageColors_lens]; rfl
  · exact (lens_parts (pageColors_lens g s)).2.2.2
  · rw [restoreLine_lens]; rfl
  · exact (lens_parts (restoreLine_lens _ s)).2.2.2

theorem addPageFormat_fnt {E : Ext} {cb : Cb} (h : Cb.Rel (fun _ => True) Fnt cb) (f : Fpdf) (o : Bytes) (sz : Size) : Fnt f (f.addPageFormat E cb o sz) := by
  rw [addPageFormat_eq]
  have h1 := front_fnt (E := E) h f o sz
  have h2 := h1.trans (back_fnt (E := E) h (front E cb f o sz) f.save)
  split
  · exact Fnt.refl f
  split
  · exact h1
  split
  · exact h2
  · refine h2.trans (Fnt.upd ?_ ?_)
    · rw [restoreColors_lens]; rfl
    · exact (lens_parts (restoreColors_lens _ f.save)).2.2.2

theorem setter_fnt (E : Ext) (cb : Cb) (f : Fpdf) (op : Op) (hs : setter op = true) : Fnt f (f.exec E cb op) := by
  have other : (∀ g : Fpdf, (lens (foot op g)).1 = (lens g).1) → (∀ g : Fpdf, (foot op g).k = g.k) → staysOnPage op = true → Fnt f (f.exec E cb op) := fun h1 h2 h3 =>
    Fnt.upd (foot_get (fun g => (lens g).1) E cb f op h3 h1) (foot_get (fun g => g.k) E cb f op h3 h2)
  cases op with
  | setFont fam st sz => exact setFont_fnt E f fam st sz
  | setFontStyle st => exact setFont_fnt E f _ _ _
  | setFontSize sz =>
    show Fnt f (f.setFontSize sz)
    unfold Fpdf.setFontSize
    refine Fnt.trans (g := { f with t.fontSizePt := sz, t.fontSize := sz / f.k }) ⟨fun _ _ _ h => h, fun h => ⟨h.k, rfl, h.fam, h.sel⟩, rfl⟩ (Fnt.same (lens_ink (outFont_ink _)))
  | setFontUnitSize sz =>
    show Fnt f (f.setFontUnitSize sz)
    unfold Fpdf.setFontUnitSize
    refine Fnt.trans (g := { f with t.fontSizePt := sz * f.k, t.fontSize := sz }) ⟨fun _ _ _ h => h, fun h => ⟨h.k, ?_, h.fam, h.sel⟩, rfl⟩ (Fnt.same (lens_ink (outFont_ink _)))
    show sz = sz * f.k / f.k
    rw [mul_div_cancel_right₀ _ h.k]
  | addFont fam st info ff => exact Fnt.fonts (addFontDef_ink E f fam st info ff) (addFontDef_le E f fam st info ff)
  | addFontFile fam st o info ff =>
    show Fnt f (f.addFontFile E fam st o info ff)
    unfold Fpdf.addFontFile
    split
    · exact Fnt.fonts (addFontDef_ink E f fam st info ff) (addFontDef_le E f fam st info ff)
    · exact Fnt.same rfl
  | addUTF8Font fam st file info se =>
    refine Fnt.fonts ?_ (addUTF8Font_le E f fam st file info se)
    have := exec_foot E cb f (.addUTF8Font fam st file info se) rfl
    exact this
  | setDrawColor | setFillColor | setTextColor | setDrawSpotColor | setFillSpotColor | setTextSpotColor | setLineWidth | setLineCapStyle | setLineJoinStyle | setDashPattern =>
    exact other (fun _ => rfl) (fun _ => rfl) rfl
  | _ => simp [setter] at hs

theorem exec_fnt {E : Ext} {cb : Cb} (h : Cb.Rel (fun _ => True) Fnt cb) (f : Fpdf) (op : Op) (h1 : op ≠ .close) (h2 : ∀ b, op ≠ .output b) : Fnt f (f.exec E cb op) :=
  (Fnt.lensRel h).exec (addPageFormat_fnt h) (setter_fnt E cb) f op h1 h2

/-- Over any history. -/
theorem reach_fnt {E : Ext} {f g : Fpdf} (h : Reach E noClose f g) : Fnt f g :=
  Reach.rel (G := noClose) Fnt Fnt.refl (fun _ _ _ => Fnt.trans) (fun f op _ hop hcb => exec_fnt hcb f op hop.1 hop.2) h

end Verif.Proof
