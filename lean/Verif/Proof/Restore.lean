import Verif.Proof.Fonts
import Mathlib.Tactic.NormNum
import Mathlib.Tactic.ByContra
/-
`AddPage` puts the settings back, whatever the header and footer functions do.
-/
namespace Verif.Proof
open Verif Verif.Model Verif.Spec

theorem setFont_hit (E : Ext) (g : Fpdf) {fam st : Bytes} {d : FontDef} {sz : Rat} (u s : Bool) (he : g.err = none) (hf : NormFam fam) (hne : fam ≠ [])
    (hs : NormStyle st) (hd : lookup (fam ++ st) g.t.fonts = some d) (hz : sz ≠ 0) :
    g.setFont E fam (st ++ (if u then B "U" else []) ++ (if s then B "S" else [])) sz = ({ g with t.underline := u, t.strikeout := s } : Fpdf).selectFont fam st sz d := by
  unfold Fpdf.setFont
  rw [if_neg (by simp [he]), parseStyle_back hs, escape_id hf.nospace]
  dsimp only
  rw [if_neg hne, hf.lower, hd, if_neg hz]

/-- The settings a page turn is to preserve; the drawing and filling colours as the operators that select them. -/
structure SameLook (f g : Fpdf) : Prop where
  family : g.t.fontFamily = f.t.fontFamily
  style : g.t.fontStyle = f.t.fontStyle
  underline : g.t.underline = f.t.underline
  strikeout : g.t.strikeout = f.t.strikeout
  sizePt : g.t.fontSizePt = f.t.fontSizePt
  size : g.t.fontSize = f.t.fontSize
  font : g.t.currentFont = f.t.currentFont
  utf8 : g.t.isUTF8 = f.t.isUTF8
  width : g.line.width = f.line.width
  draw : g.c.draw.str = f.c.draw.str
  fill : g.c.fill.str = f.c.fill.str
  text : g.c.text = f.c.text
  flag : g.c.colorFlag = f.c.colorFlag

theorem SameLook.refl (f : Fpdf) : SameLook f f := ⟨rfl, rfl, rfl, rfl, rfl, rfl, rfl, rfl, rfl, rfl, rfl, rfl, rfl⟩
theorem SameLook.trans {f g h : Fpdf} (a : SameLook f g) (b : SameLook g h) : SameLook f h :=
  ⟨b.1.trans a.1, b.2.trans a.2, b.3.trans a.3, b.4.trans a.4, b.5.trans a.5, b.6.trans a.6, b.7.trans a.7, b.8.trans a.8, b.9.trans a.9, b.10.trans a.10, b.11.trans a.11,
    b.12.trans a.12, b.13.trans a.13⟩
theorem SameLook.same {f g : Fpdf} (h : lens g = lens f) : SameLook f g := by
  obtain ⟨e1, e2, e3, e4, e5, e6, e7, e8, e9, e10⟩ := lens_t h
  obtain ⟨-, hc, hl, -⟩ := lens_parts h
  exact ⟨e1, e2, e3, e4, e5, e6, e7, e8, by rw [hl], by rw [hc], by rw [hc], by rw [hc], by rw [hc]⟩

/-- A page turn that does not end in an error leaves the settings as they were, if a font of non-zero size is selected. -/
theorem addPageFormat_look {E : Ext} {cb : Cb} (h : Cb.Rel (fun _ => True) Fnt cb) (f : Fpdf) (o : Bytes) (sz : Size) (hok : FontOk f)
    (hsel : f.t.fontFamily ≠ []) (hz : f.t.fontSizePt ≠ 0) (he : (f.addPageFormat E cb o sz).err = none) : SameLook f (f.addPageFormat E cb o sz) := by
  have hfe : f.err = none := by
    by_contra hne
    rw [addPageFormat_of_err E cb f o sz hne] at he
    exact hne he
  rw [addPageFormat_eq, if_neg (by simp [hfe])] at he ⊢
  have hs : f.save.family ≠ [] := hsel
  have h1 := front_fnt (E := E) h f o sz
  have ok1 := h1.ok hok
  have le1 := h1.le hok
  generalize front E cb f o sz = g1 at he h1 ok1 le1 ⊢
  split at he
  · next hc => exact absurd he hc.2
  rw [if_neg (by assumption)]
  split at he
  · next hc => exact absurd he hc.2
  rw [if_neg (by assumption)]
  have he2 : (back E cb g1 f.save).err = none := by
    by_contra hne
    rename_i hn
    exact hn ⟨hs, hne⟩
  -- the state before the font is selected again
  have h2 : Fnt g1 (((g1.pageColors f.save).runHeader cb).restoreLine f.save) := by
    refine Fnt.trans (Fnt.trans (Fnt.upd ?_ ?_) ((Fnt.lensRel (E := E) h).runHeader (g1.pageColors f.save))) (Fnt.upd ?_ ?_)
    · rw [pageColors_lens]; rfl
    · exact (lens_parts (pageColors_lens g1 f.save)).2.2.2
    · rw [restoreLine_lens]; rfl
    · exact (lens_parts (restoreLine_lens _ f.save)).2.2.2
  have hw : (((g1.pageColors f.save).runHeader cb).restoreLine f.save).line.width = f.line.width := by
    have := (lens_parts (restoreLine_lens ((g1.pageColors f.save).runHeader cb) f.save)).2.2.1
    rw [this]; rfl
  unfold back at he2 ⊢
  generalize ((g1.pageColors f.save).runHeader cb).restoreLine f.save = g2 at he2 h2 hw ⊢
  have hg2 : g2.err = none := by
    by_contra hne
    have : g2.restoreFont E f.save = g2 := by
      unfold Fpdf.restoreFont
      rw [if_pos hs]
      unfold Fpdf.setFont
      rw [if_pos hne]
    rw [this] at he2
    exact hne he2
  have hd := h2.le ok1 _ _ (le1 _ _ (hok.sel hsel).2.1)
  have key : g2.restoreFont E f.save = ({ g2 with t.underline := f.t.underline, t.strikeout := f.t.strikeout } : Fpdf).selectFont f.t.fontFamily f.t.fontStyle f.t.fontSizePt f.t.currentFont := by
    unfold Fpdf.restoreFont
    rw [if_pos hs]
    exact setFont_hit E g2 f.t.underline f.t.strikeout hg2 hok.fam hsel (hok.sel hsel).1 hd hz
  rw [key]
  have hl := selectFont_t ({ g2 with t.underline := f.t.underline, t.strikeout := f.t.strikeout } : Fpdf) f.t.fontFamily f.t.fontStyle f.t.fontSizePt f.t.currentFont
  generalize ({ g2 with t.underline := f.t.underline, t.strikeout := f.t.strikeout } : Fpdf).selectFont f.t.fontFamily f.t.fontStyle f.t.fontSizePt f.t.currentFont = g3 at hl ⊢
  have hl4 := restoreColors_lens g3 f.save
  generalize g3.restoreColors f.save = g4 at hl4 ⊢
  obtain ⟨a1, a2, a3, a4, a5, a6, a7, a8, -, -⟩ := lens_t hl
  obtain ⟨b1, b2, b3, b4, b5, b6, b7, b8, -, -⟩ := lens_t hl4
  obtain ⟨-, -, al, -⟩ := lens_parts hl
  obtain ⟨-, bc, bl, -⟩ := lens_parts hl4
  refine ⟨b1.trans a1, b2.trans a2, b3.trans a3, b4.trans a4, b5.trans a5, b6.trans (a6.trans ?_), b7.trans a7, b8.trans (a8.trans (hok.sel hsel).2.2.symm), ?_, ?_, ?_, ?_, ?_⟩
  · show f.t.fontSizePt / g2.k = f.t.fontSize
    rw [hok.size, h2.k, h1.k]
  · rw [bl]; show g3.line.width = _; rw [al]; exact hw
  · rw [bc]; dsimp only; split
    · rfl
    · next hn => exact not_not.mp hn
  · rw [bc]; dsimp only; split
    · rfl
    · next hn => exact not_not.mp hn
  · rw [bc]; rfl
  · rw [bc]; rfl

/-- Without a font selected, line width and colours still are as before a page turn. -/
theorem addPageFormat_nofont (E : Ext) (cb : Cb) (f : Fpdf) (o : Bytes) (sz : Size) (hsel : f.t.fontFamily = []) :
    (f.addPageFormat E cb o sz).line.width = f.line.width ∧ (f.addPageFormat E cb o sz).c.draw.str = f.c.draw.str ∧
    (f.addPageFormat E cb o sz).c.fill.str = f.c.fill.str ∧ (f.addPageFormat E cb o sz).c.text = f.c.text ∧ (f.addPageFormat E cb o sz).c.colorFlag = f.c.colorFlag := by
  rw [addPageFormat_eq]
  split
  · exact ⟨rfl, rfl, rfl, rfl, rfl⟩
  · have hs : ¬ f.save.family ≠ [] := by rw [not_not]; exact hsel
    rw [if_neg (fun h => hs h.1), if_neg (fun h => hs h.1)]
    have hb : back E cb (front E cb f o sz) f.save = (((front E cb f o sz).pageColors f.save).runHeader cb).restoreLine f.save := by
      unfold back Fpdf.restoreFont; rw [if_neg hs]
    rw [hb]
    generalize ((front E cb f o sz).pageColors f.save).runHeader cb = g
    obtain ⟨-, -, al, -⟩ := lens_parts (restoreLine_lens g f.save)
    generalize g.restoreLine f.save = g2 at al ⊢
    obtain ⟨-, bc, bl, -⟩ := lens_parts (restoreColors_lens g2 f.save)
    generalize g2.restoreColors f.save = g3 at bc bl ⊢
    refine ⟨?_, ?_, ?_, ?_, ?_⟩
    · rw [bl]; show g2.line.width = _; rw [al]; rfl
    · rw [bc]; dsimp only; split
      · rfl
      · next hn => exact not_not.mp hn
    · rw [bc]; dsimp only; split
      · rfl
      · next hn => exact not_not.mp hn
    · rw [bc]; rfl
    · rw [bc]; rfl

/-- The flowing calls that never change the font size. -/
def flows0 : Op → Bool
  | .cell .. | .multiCell .. | .write .. | .writeAligned .. | .image .. => true
  | _ => false

/-- What a relation needs to contain these calls. -/
theorem exec_flow0 {E : Ext} {cb : Cb} {R : Fpdf → Fpdf → Prop} (hrefl : ∀ f, R f f) (htrans : ∀ f g h, R f g → R g h → R f h) (hstep : ∀ f g, FStep f g → R f g)
    (hacc : ∀ f, R f (cb.accept f).2) (hpage : ∀ f o sz, R f (f.addPageFormat E cb o sz)) (hout : ∀ (f : Fpdf) (s : Bytes), R f (f.out s))
    (lm : ∀ f m, R f (f.setLeftMargin m)) (rm : ∀ f m, R f (f.setRightMargin m)) (reg : ∀ f n o p, R f (f.registerImageFile E n o p)) (f : Fpdf) (op : Op) (hop : flows0 op = true) :
    R f (f.exec E cb op) := by
  have fl : ∀ {f g}, Flow E cb f g → R f g := fun h => Flow.rel R hrefl htrans hstep hacc hpage (fun f g info a b c d h _ => htrans _ _ _ h (hout _ _)) h
  have wr : ∀ f h t l ls, R f (f.write E cb h t l ls) := fun f h t l ls => fl (write_flow f E cb h t l ls).flow
  cases op with
  | cell w h t b ln a fi l ls => exact fl (cellFormat_flow f E cb w h t b ln a fi l ls).flow
  | multiCell w h t b a fi => exact fl (multiCell_flow f E cb w h t b a fi).flow
  | write h t l ls => exact wr f h t l ls
  | writeAligned w lh t a =>
    show R f (f.writeAligned E cb w lh t a)
    unfold Fpdf.writeAligned
    dsimp only
    have fold : ∀ (l : List Bytes) (F : Fpdf → Bytes → Fpdf), (∀ g a, R g (F g a)) → ∀ g, R g (l.foldl F g) := by
      intro l F hF
      induction l with
      | nil => exact fun g => hrefl g
      | cons a l ih => exact fun g => htrans _ _ _ (hF g a) (ih _)
    apply fold
    intro g line
    unfold Fpdf.writeAlignedLine
    dsimp only
    split
    · exact htrans _ _ _ (htrans _ _ _ (lm g _) (wr _ _ _ _ _)) (lm _ _)
    split
    · exact htrans _ _ _ (htrans _ _ _ (lm g _) (wr _ _ _ _ _)) (lm _ _)
    · exact htrans _ _ _ (htrans _ _ _ (rm g _) (wr _ _ _ _ _)) (rm _ _)
  | image n p x y w h an flow l ls =>
    show R f (f.image E cb n p x y w h an flow l ls)
    unfold Fpdf.image
    dsimp only
    split
    · exact hrefl f
    · have h1 : R f (f.registerImageFile E n p.isSome p) := reg f n p.isSome p
      generalize f.registerImageFile E n p.isSome p = g at h1 ⊢
      split
      · exact h1
      · split
        · next info hinfo =>
          refine htrans _ _ _ h1 (fl (imageOut_flow g E cb info x y w h an flow l ls ?_))
          obtain ⟨q, hq, hq2⟩ := Option.bind_eq_some_iff.mp hinfo
          exact ⟨n, q, hq, hq2⟩
        · exact h1
  | _ => simp [flows0] at hop

/-- The settings are kept, unless there is an error. -/
structure Keeps (f g : Fpdf) : Prop where
  fnt : Fnt f g
  latch : f.err ≠ none → g.err ≠ none
  look : FontOk f → f.t.fontFamily ≠ [] → f.t.fontSizePt ≠ 0 → g.err = none → SameLook f g

theorem Keeps.trans {f g h : Fpdf} (a : Keeps f g) (b : Keeps g h) : Keeps f h := by
  refine ⟨a.fnt.trans b.fnt, fun x => b.latch (a.latch x), fun h1 h2 h3 h4 => ?_⟩
  have hg : g.err = none := by
    by_contra hne
    exact b.latch hne h4
  have l1 := a.look h1 h2 h3 hg
  exact l1.trans (b.look (a.fnt.ok h1) (by rw [l1.family]; exact h2) (by rw [l1.sizePt]; exact h3) h4)

theorem Keeps.same {f g : Fpdf} (h : lens g = lens f) (he : f.err ≠ none → g.err ≠ none) : Keeps f g := ⟨Fnt.same h, he, fun _ _ _ _ => SameLook.same h⟩

theorem Keeps.page {E : Ext} {cb : Cb} (h : Cb.Rel (fun _ => True) Fnt cb) (f : Fpdf) (o : Bytes) (sz : Size) : Keeps f (f.addPageFormat E cb o sz) :=
  ⟨addPageFormat_fnt h f o sz, fun he => by rw [addPageFormat_of_err E cb f o sz he]; exact he, fun h1 h2 h3 h4 => addPageFormat_look h f o sz h1 h2 h3 h4⟩

/-- Calls that print, and may start pages while doing so, keep the settings. -/
theorem exec_keeps {E : Ext} {cb : Cb} (h : Cb.Rel (fun _ => True) Fnt cb) (hacc : ∀ s, Keeps s (cb.accept s).2) (f : Fpdf) (op : Op) (hop : flows0 op = true) :
    Keeps f (f.exec E cb op) := by
  have latch : ∀ f op, staysOnPage op = true → (f : Fpdf).err ≠ none → (f.exec E cb op).err ≠ none := fun f op hs he => (exec_frm E cb f op hs).latch he
  refine exec_flow0 (fun f => Keeps.same rfl id) (fun _ _ _ => Keeps.trans) (fun f g h => Keeps.same (lens_core h.core) h.emits.frm.latch) hacc (Keeps.page h)
    (fun f s => Keeps.same (lens_out f s) (Frm.out f s).latch) (fun f m => ?_) (fun f m => ?_) (fun f n o p => ?_) f op hop
  · exact Keeps.same (exec_lens E cb f (.setLeftMargin m) rfl rfl) (latch f (.setLeftMargin m) rfl)
  · exact Keeps.same (exec_lens E cb f (.setRightMargin m) rfl rfl) (latch f (.setRightMargin m) rfl)
  · exact Keeps.same (exec_lens E cb f (.registerImageFile n o p) rfl rfl) (latch f (.registerImageFile n o p) rfl)

theorem unitScale_ne {u : Bytes} {k : Rat} (h : Fpdf.unitScale u = some k) : k ≠ 0 := by
  rintro rfl
  revert h
  unfold Fpdf.unitScale
  repeat' split
  all_goals (intro h1; first | cases h1 | (simp only [Option.some.injEq] at h1; norm_num at h1))

/-- The start of a document. -/
theorem new_fontOk {o u s : Bytes} {sz : Size} (hn : (Fpdf.new o u s sz).err = none) : FontOk (Fpdf.new o u s sz) := by
  have hfam : (Fpdf.new o u s sz).t.fontFamily = [] := new_get (fun f => f.t.fontFamily) (fun _ => rfl) o u s sz
  have key : (Fpdf.new o u s sz).k ≠ 0 ∧ (Fpdf.new o u s sz).t.fontSize = (Fpdf.new o u s sz).t.fontSizePt / (Fpdf.new o u s sz).k := by
    revert hn
    unfold Fpdf.new
    dsimp only
    split
    · intro h; simp [Fpdf.assignErr] at h
    · next k hk =>
      split
      · intro h; simp [Fpdf.assignErr] at h
      · split
        · intro h; simp [Fpdf.assignErr] at h
        · intro _
          rw [display_default]
          exact ⟨unitScale_ne hk, rfl⟩
  exact ⟨key.1, key.2, by rw [hfam]; exact normFam_nil, fun h => absurd hfam h⟩

end Verif.Proof
