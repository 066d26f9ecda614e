import Verif.Proof.Tidy
/-
Colours and line width: for programs that set them outside clipping and transformation regions, those in effect for a reader of the page are those the document
remembers.
-/
namespace Verif.Proof
open Verif Verif.Model Verif.Spec

/-- The colours and the line width the document remembers, as a reader of the page knows them. -/
def remembered (f : Fpdf) : Attr :=
  ⟨instrs (f.c.fill.str ++ [10]), instrs (f.c.draw.str ++ [10]), [.word (fmtF 2 (f.line.width * f.k))]⟩

/-- A string that sets the colour for filling. -/
def SetsFill (s : Bytes) : Prop := ∃ c, Frag s c ∧ ∀ A st, attrRun (A, st) c = ({ A with fill := c }, st)
/-- A string that sets the colour for stroking. -/
def SetsStroke (s : Bytes) : Prop := ∃ c, Frag s c ∧ ∀ A st, attrRun (A, st) c = ({ A with stroke := c }, st)

/-- The colours are well-formed. -/
structure Cols (c : ColorSt) : Prop where
  fill : SetsFill c.fill.str
  draw : SetsStroke c.draw.str

theorem rgb_setsFill (r g b : Int) : SetsFill (rgbColorValue r g b "g" "rg").str := by
  have key : ∀ (c : Prop) [Decidable c] (x y z : Rat), SetsFill (if c then sprintf "%.3f %s" [.f x, .s (B "g")] else sprintf "%.3f %.3f %.3f %s" [.f x, .f y, .f z, .s (B "rg")]) := by
    intro c _ x y z
    split
    · exact ⟨[([.word (fmtF 3 x)], B "g")], frag_sprintf rfl rfl, fun _ _ => rfl⟩
    · exact ⟨[([.word (fmtF 3 x), .word (fmtF 3 y), .word (fmtF 3 z)], B "rg")], frag_sprintf rfl rfl, fun _ _ => rfl⟩
  exact key _ _ _ _

theorem rgb_setsStroke (r g b : Int) : SetsStroke (rgbColorValue r g b "G" "RG").str := by
  have key : ∀ (c : Prop) [Decidable c] (x y z : Rat), SetsStroke (if c then sprintf "%.3f %s" [.f x, .s (B "G")] else sprintf "%.3f %.3f %.3f %s" [.f x, .f y, .f z, .s (B "RG")]) := by
    intro c _ x y z
    split
    · exact ⟨[([.word (fmtF 3 x)], B "G")], frag_sprintf rfl rfl, fun _ _ => rfl⟩
    · exact ⟨[([.word (fmtF 3 x), .word (fmtF 3 y), .word (fmtF 3 z)], B "RG")], frag_sprintf rfl rfl, fun _ _ => rfl⟩
  exact key _ _ _ _

theorem spot_setsFill (id : Nat) (t : Rat) : SetsFill (sprintf "/CS%d cs %.3f scn" [.d id, .f t]) :=
  ⟨_, (frag_sprintf rfl rfl : Frag _ [([.name _], B "cs"), ([.word _], B "scn")]), fun _ _ => rfl⟩

theorem spot_setsStroke (id : Nat) (t : Rat) : SetsStroke (sprintf "/CS%d CS %.3f SCN" [.d id, .f t]) :=
  ⟨_, (frag_sprintf rfl rfl : Frag _ [([.name _], B "CS"), ([.word _], B "SCN")]), fun _ _ => rfl⟩

theorem SetsFill.run {s : Bytes} (h : SetsFill s) : Frag s (instrs (s ++ [10])) ∧ ∀ A st, attrRun (A, st) (instrs (s ++ [10])) = ({ A with fill := instrs (s ++ [10]) }, st) := by
  obtain ⟨c, h1, h2⟩ := h
  have : instrs (s ++ [10]) = c := (h1 10 (by decide)).instrs
  rw [this]; exact ⟨h1, h2⟩

theorem SetsStroke.run {s : Bytes} (h : SetsStroke s) : Frag s (instrs (s ++ [10])) ∧ ∀ A st, attrRun (A, st) (instrs (s ++ [10])) = ({ A with stroke := instrs (s ++ [10]) }, st) := by
  obtain ⟨c, h1, h2⟩ := h
  have : instrs (s ++ [10]) = c := (h1 10 (by decide)).instrs
  rw [this]; exact ⟨h1, h2⟩

/-- A reader of the current page has the attributes `A`, also on top of the stack as far as the document knows it. -/
def At (f : Fpdf) (A : Attr) : Prop :=
  ∃ b is st, f.pages[f.page]? = some b ∧ Lines b is ∧ attrRun (Attr.initial, []) is = (A, st) ∧ ∀ x ∈ st.take (nestOf f), x = A

/-- The attributes of the reader are those remembered. -/
structure AInv (f : Fpdf) : Prop where
  cols : Cols f.c
  last : f.page + 1 = f.pages.length
  read : f.state = 2 → At f (remembered f)

/-- Both invariants. -/
structure AP (f : Fpdf) : Prop where
  p : PInv f
  a : AInv f

/-- Drawing keeps the attributes. -/
theorem At.emits {f g : Fpdf} {A : Attr} (h : At f A) (hi : Inv f) (hs : f.state = 2) (he : Emits f g) : At g A := by
  obtain ⟨b, is, st, h1, h2, h3, h4⟩ := h
  obtain ⟨js, hw, hk⟩ := he.wr hi
  obtain ⟨c, ⟨hp, -⟩, hc⟩ := hw.app
  rw [if_pos hs] at hp
  obtain ⟨st', e1, e2⟩ := hk 0 A st (by simpa using h4)
  refine ⟨b ++ c, is ++ js, st', ?_, h2.append hc, ?_, by simpa using e2⟩
  · rw [hp, frame_page he.frm.frame, modifyAt_getElem?, if_pos rfl, h1]; rfl
  · rw [attrRun_append, h3, e1]

/-- A line that sets attributes, outside saved graphics states. -/
theorem At.set {f : Fpdf} {A A' : Attr} {s : Bytes} {is : List Instr} (h : At f A) (hs : f.state = 2) (hn : nestOf f = 0) (hf : Frag s is)
    (hr : ∀ st, attrRun (A, st) is = (A', st)) : At (f.out s) A' := by
  obtain ⟨b, js, st, h1, h2, h3, h4⟩ := h
  have hn' : nestOf (f.out s) = 0 := (rest_nest (rest_out f s)).trans hn
  refine ⟨b ++ (s ++ [10]), js ++ is, st, ?_, h2.append hf.line, ?_, by rw [hn']; simp⟩
  · unfold Fpdf.out
    rw [if_pos hs]
    show (modifyAt f.page _ f.pages)[f.page]? = _
    rw [modifyAt_getElem?, if_pos rfl, h1]
    simp
  · rw [attrRun_append, h3, hr]

/-- Nothing of it changed. -/
theorem At.same {f g : Fpdf} {A : Attr} (h : At f A) (hp : g.pages = f.pages) (hq : g.page = f.page) (hn : nestOf g = nestOf f) : At g A := by
  unfold At at *; rw [hp, hq, hn]; exact h

theorem remembered_congr {f g : Fpdf} (hc : g.c = f.c) (hl : g.line.width = f.line.width) (hk : g.k = f.k) : remembered g = remembered f := by
  unfold remembered; rw [hc, hl, hk]

/-- A drawing operation. -/
theorem AInv.emits {f g : Fpdf} (h : AInv f) (hi : Inv f) (hs : f.state ≠ 2 → g.pages.length = f.pages.length) (he : Emits f g) (hc : g.c = f.c) (hl : g.line.width = f.line.width) : AInv g := by
  have h1 := frame_page he.frm.frame
  have h2 := frame_state he.frm.frame
  refine ⟨by rw [hc]; exact h.cols, ?_, fun hx => ?_⟩
  · rw [h1]
    by_cases hx : f.state = 2
    · obtain ⟨b, hp, -⟩ := he.frm.app
      rw [hp, if_pos hx, modifyAt_length]; exact h.last
    · rw [hs hx]; exact h.last
  · rw [remembered_congr hc hl (frame_k he.frm.frame)]
    exact (h.read (h2.symm.trans hx)).emits hi (h2.symm.trans hx) he

theorem emits_len {f g : Fpdf} (he : EmitsL f g) : g.pages.length = f.pages.length := by
  obtain ⟨b, hp, -⟩ := he.frm.app
  rw [hp]
  split
  · rw [modifyAt_length]
  · rfl

/-- A drawing step that leaves the nesting alone. -/
structure Calm (f g : Fpdf) : Prop where
  emits : Emits f g
  lvl : lvl g = lvl f
  c : g.c = f.c
  width : g.line.width = f.line.width

theorem Calm.even {f g : Fpdf} (h : Calm f g) : Even f g := ⟨h.emits.loose, h.lvl⟩
theorem Calm.refl (f : Fpdf) : Calm f f := ⟨Emits.refl f, rfl, rfl, rfl⟩
theorem Calm.trans {f g h : Fpdf} (a : Calm f g) (b : Calm g h) : Calm f h :=
  ⟨a.emits.trans b.emits, b.lvl.trans a.lvl, b.c.trans a.c, b.width.trans a.width⟩

theorem AP.calm {f g : Fpdf} (h : AP f) (he : Calm f g) : AP g ∧ RegsLe (regsOf f) (regsOf g) :=
  have := h.p.even' he.even
  ⟨⟨this.1, h.a.emits h.p.inv (fun _ => emits_len he.emits.loose) he.emits he.c he.width⟩, this.2⟩

theorem AP.flags {f : Fpdf} (h : AP f) (a b : Bool) (c : List CbEvent) : AP { f with inHeader := a, inFooter := b, log := c } :=
  ⟨h.p.flags a b c, h.a.cols, h.a.last, h.a.read⟩

/-! ### The discipline -/

/-- Programs as in `tidy` that moreover set colours and the line width only outside clipping and transformation regions, and do not go back to earlier pages. -/
def steady (E : Ext) : Guard :=
  { op := fun f cb op => (tidy E).op f cb op ∧ (∀ n, op ≠ .setPage n) ∧ (setsAttr op = true → nestOf f = 0)
    cb := pagesFirst.cb }

/-- What a piece of such a program does. -/
def AR (f g : Fpdf) : Prop := OB f g ∧ (g.err = none → AP f → AP g ∧ RegsLe (regsOf f) (regsOf g))

/-- … a piece that leaves the nesting as it was. -/
def AG (f g : Fpdf) : Prop := OB f g ∧ (g.err = none → AP f → AP g ∧ RegsLe (regsOf f) (regsOf g) ∧ nestOf g = nestOf f)

/-- … that, or a page has been begun while a graphics state was open. -/
def AQ (f g : Fpdf) : Prop := OB f g ∧ (g.err = none → AP f →
  (nestOf f ≠ 0 ∧ f.pages.length < g.pages.length) ∨ (AP g ∧ RegsLe (regsOf f) (regsOf g) ∧ nestOf g = nestOf f))

theorem AR.refl (f : Fpdf) : AR f f := ⟨OB.refl f, fun _ h => ⟨h, RegsLe.refl _⟩⟩
theorem AR.trans {f g h : Fpdf} (a : AR f g) (b : AR g h) : AR f h :=
  ⟨a.1.trans b.1, fun hh hf => by
    obtain ⟨h1, h2⟩ := a.2 (none_of b.1.2.latch hh) hf
    obtain ⟨h3, h4⟩ := b.2 hh h1
    exact ⟨h3, h2.trans h4⟩⟩
theorem AG.refl (f : Fpdf) : AG f f := ⟨OB.refl f, fun _ h => ⟨h, RegsLe.refl _, rfl⟩⟩
theorem AG.trans {f g h : Fpdf} (a : AG f g) (b : AG g h) : AG f h :=
  ⟨a.1.trans b.1, fun hh hf => by
    obtain ⟨h1, h2, h2'⟩ := a.2 (none_of b.1.2.latch hh) hf
    obtain ⟨h3, h4, h4'⟩ := b.2 hh h1
    exact ⟨h3, h2.trans h4, h4'.trans h2'⟩⟩
theorem AG.qr {f g : Fpdf} (h : AG f g) : AQ f g := ⟨h.1, fun hg hf => .inr (h.2 hg hf)⟩
theorem AQ.refl (f : Fpdf) : AQ f f := (AG.refl f).qr
theorem AQ.trans {f g h : Fpdf} (a : AQ f g) (b : AQ g h) : AQ f h :=
  ⟨a.1.trans b.1, fun hh hf => by
    have ho := a.1.1.page hf.p.page_lt
    rcases a.2 (none_of b.1.2.latch hh) hf with ⟨h1, h2⟩ | ⟨h1, h2, h3⟩
    · exact .inl ⟨h1, Nat.lt_of_lt_of_le h2 (b.1.1.page ho.1).2.2⟩
    · rcases b.2 hh h1 with ⟨k1, k2⟩ | ⟨k1, k2, k3⟩
      · exact .inl ⟨by omega, Nat.lt_of_le_of_lt ho.2.2 k2⟩
      · exact .inr ⟨k1, h2.trans k2, k3.trans h3⟩⟩
theorem AG.calm {f g : Fpdf} (h : Calm f g) : AG f g :=
  ⟨OB.of_frm h.emits.frm, fun _ hf => have := hf.calm h; ⟨this.1, this.2, lvl_nest h.lvl⟩⟩
theorem AG.flags (f : Fpdf) (a b : Bool) (c : List CbEvent) : AG f { f with inHeader := a, inFooter := b, log := c } :=
  ⟨OB.flags f a b c, fun _ hf => ⟨hf.flags a b c, RegsLe.refl _, rfl⟩⟩

theorem AR.qg {f g : Fpdf} (h : AR f g) (hn : f.err = none → g.err = none → nestOf g = nestOf f) : AG f g :=
  ⟨h.1, fun hg hf => ⟨(h.2 hg hf).1, (h.2 hg hf).2, hn (none_of h.1.2.latch hg) hg⟩⟩

/-- The call-backs. -/
abbrev CbA (cb : Cb) : Prop := Cb.Rel (fun s => s.page ≠ 0) AG cb

theorem CbA.of {cb : Cb} (h : Cb.Rel (fun s => s.page ≠ 0) AR cb) (ht : CbTidy cb) : CbA cb :=
  ⟨fun a ha s hs => (h.header a ha s hs).qg (ht.header a ha s hs), fun a ha b s hs => (h.footer a ha b s hs).qg (ht.footer a ha b s hs),
    fun s => (h.accept s).qg (ht.accept s)⟩

/-! ### The steps of `AddPage` -/

section
variable (f : Fpdf)

theorem out_pt (s : Bytes) : (f.out s).c = f.c ∧ (f.out s).line = f.line ∧ (f.out s).k = f.k := by unfold Fpdf.out; split <;> exact ⟨rfl, rfl, rfl⟩

theorem dash_calm : Calm f f.outputDashPattern := ⟨outputDashPattern_emits f, lvl_out _ _, (out_pt f _).1, by
  have e := congrArg (fun l : LineSt => l.width) (out_pt f (B "[" ++ Fpdf.dashNums f.line.dashArray ++ B "] " ++ fmtF 2 f.line.dashPhase ++ B " d")).2.1; exact e⟩

theorem restoreFont_calm (E : Ext) (s : Fpdf.Saved) : Calm f (f.restoreFont E s) := by
  unfold Fpdf.restoreFont
  split
  · have e := setFont_ink E f s.family s.style s.size
    exact ⟨setFont_emits f E _ _ _, lvl_font e, by have e := congrArg (fun f : Fpdf => f.c) e; exact e, by have e := congrArg (fun f : Fpdf => f.line.width) e; exact e⟩
  · exact Calm.refl f

end

/-- On a page, outside saved graphics states, with attributes `A`. -/
structure Pt (f : Fpdf) (A : Attr) : Prop where
  inv : Inv f
  state : f.state = 2
  nest : nestOf f = 0
  read : At f A

theorem Pt.emits {f g : Fpdf} {A : Attr} (h : Pt f A) (he : Emits f g) (hn : nestOf g = nestOf f) : Pt g A := by
  obtain ⟨is, hw, -⟩ := he.wr h.inv
  exact ⟨hw.inv, (frame_state he.frm.frame).trans h.state, hn.trans h.nest, h.read.emits h.inv h.state he⟩

theorem Pt.calm {f g : Fpdf} {A : Attr} (h : Pt f A) (he : Calm f g) : Pt g A := h.emits he.emits (lvl_nest he.lvl)

theorem Pt.set {f : Fpdf} {A A' : Attr} {s : Bytes} {is : List Instr} (h : Pt f A) (hf : Frag s is) (hr : ∀ st, attrRun (A, st) is = (A', st)) : Pt (f.out s) A' :=
  ⟨rest_inv (rest_out f s) h.inv, (frame_state (frame_out f s)).trans h.state, (rest_nest (rest_out f s)).trans h.nest, h.read.set h.state h.nest hf hr⟩

theorem width_frag (x : Rat) : Frag (sprintf "%.2f w" [.f x]) [([.word (fmtF 2 x)], B "w")] := frag_sprintf rfl rfl

theorem Pt.width {f : Fpdf} {A : Attr} (h : Pt f A) (w x : Rat) : Pt (({ f with line.width := w } : Fpdf).outf "%.2f w" [.f x]) { A with width := [.word (fmtF 2 x)] } := by
  have h1 : Pt ({ f with line.width := w } : Fpdf) A := ⟨h.inv, h.state, h.nest, h.read⟩
  exact h1.set (width_frag x) (fun _ => rfl)

theorem pageLines_pt {f : Fpdf} {A : Attr} (h : Pt f A) (lw : Rat) : Pt (f.pageLines lw) { A with width := [.word (fmtF 2 (lw * f.k))] } ∧ (f.pageLines lw).k = f.k ∧ (f.pageLines lw).line.width = lw := by
  unfold Fpdf.pageLines
  dsimp only
  have h1 : Pt (f.outf "%d J" [.d f.line.cap]) A := h.emits (by outf) (lvl_nest (lvl_out _ _))
  have k1 : (f.outf "%d J" [.d f.line.cap]).k = f.k := (out_pt _ _).2.2
  generalize f.outf "%d J" [.d f.line.cap] = g1 at h1 k1 ⊢
  have h2 : Pt (g1.outf "%d j" [.d g1.line.join]) A := h1.emits (by outf) (lvl_nest (lvl_out _ _))
  have k2 : (g1.outf "%d j" [.d g1.line.join]).k = g1.k := (out_pt _ _).2.2
  generalize g1.outf "%d j" [.d g1.line.join] = g2 at h2 k2 ⊢
  have h4 := h2.width lw (lw * g2.k)
  have k4 : (({ g2 with line.width := lw } : Fpdf).outf "%.2f w" [.f (lw * g2.k)]).k = g2.k := (out_pt _ _).2.2
  have w4 : (({ g2 with line.width := lw } : Fpdf).outf "%.2f w" [.f (lw * g2.k)]).line.width = lw := by
    have e := congrArg (fun l : LineSt => l.width) (out_pt { g2 with line.width := lw } (sprintf "%.2f w" [.f (lw * g2.k)])).2.1; exact e
  generalize ({ g2 with line.width := lw } : Fpdf).outf "%.2f w" [.f (lw * g2.k)] = g4 at h4 k4 w4 ⊢
  rw [k2, k1] at h4 k4
  split
  · exact ⟨h4.calm (dash_calm g4), (out_pt _ _).2.2.trans k4, (dash_calm g4).width.trans w4⟩
  · exact ⟨h4, k4, w4⟩

/-- The saved colours are well-formed. -/
structure SavedCols (s : Fpdf.Saved) : Prop where
  fc : SetsFill s.fc.str
  dc : SetsStroke s.dc.str

theorem draw_pt {f : Fpdf} {A : Attr} (h : Pt f A) (c : Color) (hc : ColOk (regsOf f) c.str) : Pt ({ f with c.draw := c } : Fpdf) A :=
  ⟨⟨hc, h.inv.fill, h.inv.text, h.inv.font, h.inv.fonts, h.inv.imgs, h.inv.bmap⟩, h.state, h.nest, h.read⟩
theorem fill_pt {f : Fpdf} {A : Attr} (h : Pt f A) (c : Color) (hc : ColOk (regsOf f) c.str) : Pt ({ f with c.fill := c } : Fpdf) A :=
  ⟨⟨h.inv.draw, hc, h.inv.text, h.inv.font, h.inv.fonts, h.inv.imgs, h.inv.bmap⟩, h.state, h.nest, h.read⟩
theorem text_pt {f : Fpdf} {A : Attr} (h : Pt f A) (c : Color) (b : Bool) (hc : ColOk (regsOf f) c.str) : Pt ({ f with c.text := c, c.colorFlag := b } : Fpdf) A :=
  ⟨⟨h.inv.draw, h.inv.fill, hc, h.inv.font, h.inv.fonts, h.inv.imgs, h.inv.bmap⟩, h.state, h.nest, h.read⟩

theorem pageColors_pt {f : Fpdf} {A : Attr} (h : Pt f A) (s : Fpdf.Saved) (hs : SavedOk (regsOf f) s) (hc : SavedCols s) (ha : A.fill = Attr.initial.fill) (hb : A.stroke = Attr.initial.stroke) :
    Pt (f.pageColors s) { A with fill := instrs (s.fc.str ++ [10]), stroke := instrs (s.dc.str ++ [10]) } ∧ (f.pageColors s).c.fill = s.fc ∧ (f.pageColors s).c.draw = s.dc ∧
      (f.pageColors s).line.width = f.line.width ∧ (f.pageColors s).k = f.k := by
  unfold Fpdf.pageColors
  dsimp only
  have h1 : Pt (if s.dc.str ≠ B "0 G" then ({ f with c.draw := s.dc } : Fpdf).out s.dc.str else { f with c.draw := s.dc }) { A with stroke := instrs (s.dc.str ++ [10]) } := by
    split
    · exact (draw_pt h s.dc hs.dc).set hc.dc.run.1 (hc.dc.run.2 A)
    · next hx =>
      have hx : s.dc.str = B "0 G" := by simpa using hx
      have e : ({ A with stroke := instrs (s.dc.str ++ [10]) } : Attr) = A := by
        rw [hx, show instrs (B "0 G" ++ [10]) = Attr.initial.stroke by decide +kernel, ← hb]
      rw [e]
      exact draw_pt h s.dc hs.dc
  have r1 : regsOf (if s.dc.str ≠ B "0 G" then ({ f with c.draw := s.dc } : Fpdf).out s.dc.str else { f with c.draw := s.dc }) = regsOf f ∧
      (if s.dc.str ≠ B "0 G" then ({ f with c.draw := s.dc } : Fpdf).out s.dc.str else { f with c.draw := s.dc }).c.draw = s.dc ∧
      (if s.dc.str ≠ B "0 G" then ({ f with c.draw := s.dc } : Fpdf).out s.dc.str else { f with c.draw := s.dc }).line = f.line ∧
      (if s.dc.str ≠ B "0 G" then ({ f with c.draw := s.dc } : Fpdf).out s.dc.str else { f with c.draw := s.dc }).k = f.k := by
    split
    · exact ⟨(regs_out _ _).trans rfl, by rw [(out_pt _ _).1], (out_pt _ _).2.1, (out_pt _ _).2.2⟩
    · exact ⟨rfl, rfl, rfl, rfl⟩
  generalize (if s.dc.str ≠ B "0 G" then ({ f with c.draw := s.dc } : Fpdf).out s.dc.str else { f with c.draw := s.dc }) = g at h1 r1 ⊢
  obtain ⟨r1, d1, l1, k1⟩ := r1
  rw [← r1] at hs
  have h2 : Pt (if s.fc.str ≠ B "0 g" then ({ g with c.fill := s.fc } : Fpdf).out s.fc.str else { g with c.fill := s.fc }) { A with fill := instrs (s.fc.str ++ [10]), stroke := instrs (s.dc.str ++ [10]) } := by
    split
    · exact (fill_pt h1 s.fc hs.fc).set hc.fc.run.1 (hc.fc.run.2 _)
    · next hx =>
      have hx : s.fc.str = B "0 g" := by simpa using hx
      have e : ({ A with fill := instrs (s.fc.str ++ [10]), stroke := instrs (s.dc.str ++ [10]) } : Attr) = { A with stroke := instrs (s.dc.str ++ [10]) } := by
        rw [hx, show instrs (B "0 g" ++ [10]) = Attr.initial.fill by decide +kernel, ← ha]
      rw [e]
      exact fill_pt h1 s.fc hs.fc
  have r2 : regsOf (if s.fc.str ≠ B "0 g" then ({ g with c.fill := s.fc } : Fpdf).out s.fc.str else { g with c.fill := s.fc }) = regsOf g ∧
      (if s.fc.str ≠ B "0 g" then ({ g with c.fill := s.fc } : Fpdf).out s.fc.str else { g with c.fill := s.fc }).c.fill = s.fc ∧
      (if s.fc.str ≠ B "0 g" then ({ g with c.fill := s.fc } : Fpdf).out s.fc.str else { g with c.fill := s.fc }).c.draw = g.c.draw ∧
      (if s.fc.str ≠ B "0 g" then ({ g with c.fill := s.fc } : Fpdf).out s.fc.str else { g with c.fill := s.fc }).line = g.line ∧
      (if s.fc.str ≠ B "0 g" then ({ g with c.fill := s.fc } : Fpdf).out s.fc.str else { g with c.fill := s.fc }).k = g.k := by
    split
    · exact ⟨(regs_out _ _).trans rfl, by rw [(out_pt _ _).1], by rw [(out_pt _ _).1], (out_pt _ _).2.1, (out_pt _ _).2.2⟩
    · exact ⟨rfl, rfl, rfl, rfl, rfl⟩
  generalize (if s.fc.str ≠ B "0 g" then ({ g with c.fill := s.fc } : Fpdf).out s.fc.str else { g with c.fill := s.fc }) = g2 at h2 r2 ⊢
  obtain ⟨r2, f2, d2, l2, k2⟩ := r2
  rw [← r2] at hs
  exact ⟨text_pt h2 s.tc s.cf hs.tc, f2, d2.trans d1, by show g2.line.width = _; rw [l2, l1], k2.trans k1⟩

theorem restoreLine_pt {f : Fpdf} (h : Pt f (remembered f)) (s : Fpdf.Saved) : Pt (f.restoreLine s) (remembered (f.restoreLine s)) ∧ (f.restoreLine s).c = f.c ∧ lvl (f.restoreLine s) = lvl f := by
  unfold Fpdf.restoreLine
  dsimp only
  split
  · have h1 := h.width s.lw (s.lw * f.k)
    have e : remembered (({ f with line.width := s.lw } : Fpdf).outf "%.2f w" [.f (s.lw * f.k)]) = { remembered f with width := [.word (fmtF 2 (s.lw * f.k))] } := by
      have o := out_pt ({ f with line.width := s.lw } : Fpdf) (sprintf "%.2f w" [.f (s.lw * f.k)])
      unfold remembered Fpdf.outf
      rw [o.1, o.2.1, o.2.2]
    exact ⟨by rw [e]; exact h1, (out_pt _ _).1, lvl_out _ _⟩
  · exact ⟨h, rfl, rfl⟩

theorem restoreColors_pt {f : Fpdf} (h : Pt f (remembered f)) (s : Fpdf.Saved) (hs : SavedOk (regsOf f) s) (hc : SavedCols s) (hf : Cols f.c) :
    Pt (f.restoreColors s) (remembered (f.restoreColors s)) ∧ Cols (f.restoreColors s).c := by
  unfold Fpdf.restoreColors
  dsimp only
  have h1 : Pt (if f.c.draw.str ≠ s.dc.str then ({ f with c.draw := s.dc } : Fpdf).out s.dc.str else f) (remembered (if f.c.draw.str ≠ s.dc.str then ({ f with c.draw := s.dc } : Fpdf).out s.dc.str else f)) ∧
      Cols (if f.c.draw.str ≠ s.dc.str then ({ f with c.draw := s.dc } : Fpdf).out s.dc.str else f).c ∧
      regsOf (if f.c.draw.str ≠ s.dc.str then ({ f with c.draw := s.dc } : Fpdf).out s.dc.str else f) = regsOf f := by
    split
    · have o := out_pt ({ f with c.draw := s.dc } : Fpdf) s.dc.str
      have e : remembered (({ f with c.draw := s.dc } : Fpdf).out s.dc.str) = { remembered f with stroke := instrs (s.dc.str ++ [10]) } := by
        unfold remembered; rw [o.1, o.2.1, o.2.2]
      refine ⟨by rw [e]; exact (draw_pt h s.dc hs.dc).set hc.dc.run.1 (hc.dc.run.2 _), by rw [o.1]; exact ⟨hf.fill, hc.dc⟩, (regs_out _ _).trans rfl⟩
    · exact ⟨h, hf, rfl⟩
  generalize (if f.c.draw.str ≠ s.dc.str then ({ f with c.draw := s.dc } : Fpdf).out s.dc.str else f) = g at h1 ⊢
  obtain ⟨h1, c1, r1⟩ := h1
  rw [← r1] at hs
  have h2 : Pt (if g.c.fill.str ≠ s.fc.str then ({ g with c.fill := s.fc } : Fpdf).out s.fc.str else g) (remembered (if g.c.fill.str ≠ s.fc.str then ({ g with c.fill := s.fc } : Fpdf).out s.fc.str else g)) ∧
      Cols (if g.c.fill.str ≠ s.fc.str then ({ g with c.fill := s.fc } : Fpdf).out s.fc.str else g).c ∧
      regsOf (if g.c.fill.str ≠ s.fc.str then ({ g with c.fill := s.fc } : Fpdf).out s.fc.str else g) = regsOf g := by
    split
    · have o := out_pt ({ g with c.fill := s.fc } : Fpdf) s.fc.str
      have e : remembered (({ g with c.fill := s.fc } : Fpdf).out s.fc.str) = { remembered g with fill := instrs (s.fc.str ++ [10]) } := by
        unfold remembered; rw [o.1, o.2.1, o.2.2]
      refine ⟨by rw [e]; exact (fill_pt h1 s.fc hs.fc).set hc.fc.run.1 (hc.fc.run.2 _), by rw [o.1]; exact ⟨hc.fc, c1.draw⟩, (regs_out _ _).trans rfl⟩
    · exact ⟨h1, c1, rfl⟩
  generalize (if g.c.fill.str ≠ s.fc.str then ({ g with c.fill := s.fc } : Fpdf).out s.fc.str else g) = g2 at h2 ⊢
  obtain ⟨h2, c2, r2⟩ := h2
  rw [← r2] at hs
  exact ⟨text_pt h2 s.tc s.cf hs.tc, c2.fill, c2.draw⟩

/-! ### Pages -/

section
variable {cb : Cb} (hcb : CbA cb)
include hcb

theorem CbA.ob : Cb.Rel (fun s => s.page ≠ 0) OB cb :=
  ⟨fun a ha s hs => (hcb.header a ha s hs).1, fun a ha b s hs => (hcb.footer a ha b s hs).1, fun s => (hcb.accept s).1⟩

theorem CbA.runFooter (last : Bool) (f : Fpdf) (hp : f.page ≠ 0) : AG f (f.runFooter cb last) := by
  unfold Fpdf.runFooter
  dsimp only
  cases hf : cb.footer with
  | none =>
    dsimp only
    exact (AG.flags f f.inHeader true f.log).trans (AG.flags _ f.inHeader false f.log)
  | some fn =>
    dsimp only
    refine ((AG.flags f f.inHeader true (f.log ++ [CbEvent.footer f.page last])).trans (hcb.footer fn hf last _ hp)).trans ?_
    exact AG.flags _ _ false _

theorem CbA.runHeader (f : Fpdf) (hp : f.page ≠ 0) : AG f (f.runHeader cb) := by
  unfold Fpdf.runHeader
  cases hf : cb.header with
  | none => exact AG.refl f
  | some fn =>
    dsimp only
    have h1 : AG f { fn { f with inHeader := true, log := f.log ++ [CbEvent.header f.page] } with inHeader := false } := by
      refine ((AG.flags f true f.inFooter (f.log ++ [CbEvent.header f.page])).trans (hcb.header fn hf _ hp)).trans ?_
      exact AG.flags _ false _ _
    split
    · exact h1.trans (AG.calm ⟨exec_steady {} {} _ .setHomeXY rfl rfl trivial, rfl, rfl, rfl⟩)
    · exact h1

/-- Leaving a page. -/
theorem leave_a (f : Fpdf) (h : AP f) (hn : nestOf f = 0) (hg : (f.leavePage cb).err = none) :
    Closed (f.leavePage cb) ∧ RegsLe (regsOf f) (regsOf (f.leavePage cb)) ∧ (f.leavePage cb).page + 1 = (f.leavePage cb).pages.length := by
  unfold Fpdf.leavePage at hg ⊢
  dsimp only at hg ⊢
  have hl := h.a.last
  rw [if_neg (show ¬ (f.page ≠ f.pages.length - 1) by omega)] at hg ⊢
  rcases h.p.at_ with ⟨a1, a2, a3, a4, a5⟩ | ⟨hs, hp1, hp2⟩
  · rw [if_pos a1] at hg ⊢
    rw [if_neg (show ¬ (({ f with state := 1 } : Fpdf).page > 0) by show ¬ (f.page > 0); omega)] at hg ⊢
    refine ⟨⟨h.p.page_lt, a4, a5, ?_, h.p.inv⟩, RegsLe.refl _, hl⟩
    intro n b hn1 hb
    have hb : f.pages[n]? = some b := hb
    rw [List.getElem?_eq_none (by omega)] at hb
    cases hb
  · rw [if_neg (show ¬ (f.state = 0) by omega)] at hg ⊢
    rw [if_pos (show f.page > 0 by omega)] at hg ⊢
    have hlat : (f.runFooter cb false).err ≠ none → (f.runFooter cb false).endpage.err ≠ none := (endLayer_frm _).latch
    have hq := hcb.runFooter false f (by omega)
    obtain ⟨q1, q2, q3⟩ := hq.2 (none_of hlat hg) h
    have hst := (hq.1.2.keep (none_of hlat hg) hs).1
    obtain ⟨c1, c2⟩ := q1.p.close hst (q3.trans hn)
    refine ⟨c1, q2.trans c2, ?_⟩
    generalize f.runFooter cb false = g at *
    have e1 : g.endLayer.page = g.page := frame_page (endLayer_frm g).frame
    have e2 : g.endLayer.pages.length = g.pages.length := by
      obtain ⟨b, hp, -⟩ := (endLayer_frm g).app
      rw [hp, if_pos hst, modifyAt_length]
    show g.endLayer.page + 1 = g.endLayer.pages.length
    rw [e1, e2]; exact q1.a.last

/-- A new page. -/
theorem addPage_aq (E : Ext) (f : Fpdf) (o : Bytes) (sz : Size) : AQ f (f.addPageFormat E cb o sz) := by
  have KO := OB.turnRel (E := E) hcb.ob
  refine ⟨KO.addPageFormat f o sz, fun hg hf => ?_⟩
  have he : f.err = none := none_of (KO.addPageFormat f o sz).2.latch hg
  have htail := KO.tail f o sz he
  have hbe : ((f.leavePage cb).beginpage o sz).err = none := none_of htail.2.latch hg
  have hle : (f.leavePage cb).err = none := by
    by_cases h : (f.leavePage cb).err = none
    · exact h
    · rw [beginpage_of_err _ o sz h] at hbe; exact hbe
  have hol := (leavePage_open hcb.ob f).page hf.p.page_lt
  by_cases hn : nestOf f = 0
  · refine .inr ?_
    obtain ⟨c1, c2, c3⟩ := leave_a hcb f hf hn hle
    obtain ⟨b1, b2, b3, b4, b5, b6⟩ := c1.begin hle o sz
    obtain ⟨p1, p2, -⟩ := beginpage_page (f.leavePage cb) o sz hle
    have hs : SavedOk (regsOf ((f.leavePage cb).beginpage o sz)) f.save := by
      rw [b2]; exact SavedOk.mono c2 ⟨hf.p.inv.draw, hf.p.inv.fill, hf.p.inv.text⟩
    have hsc : SavedCols f.save := ⟨hf.a.cols.fill, hf.a.cols.draw⟩
    have hnb : nestOf ((f.leavePage cb).beginpage o sz) = 0 := (lvl_nest b3).trans c1.nest
    have hlast : ((f.leavePage cb).beginpage o sz).page + 1 = ((f.leavePage cb).beginpage o sz).pages.length := by rw [p1, b6, c3]
    have t0 : Pt ((f.leavePage cb).beginpage o sz) Attr.initial := by
      refine ⟨b1.inv, b4, hnb, [], [], [], ?_, Lines.nil, rfl, by simp⟩
      rw [p1, p2, c3]; simp
    clear htail KO hol p1 p2
    rw [← b2] at c2
    unfold Fpdf.addPageFormat at hg ⊢
    rw [if_neg (by simp [he])] at hg ⊢
    dsimp only at hg ⊢
    generalize (f.leavePage cb).beginpage o sz = g0 at *
    generalize f.save = sv at *
    have e1 := (pageLines_even g0 sv.lw).trans (restoreFont_even _ E sv)
    obtain ⟨t1, k1, w1⟩ := pageLines_pt t0 sv.lw
    have cf1 := restoreFont_calm (g0.pageLines sv.lw) E sv
    have t1' := t1.calm cf1
    have w1' := cf1.width.trans w1
    have k1' := (frame_k cf1.emits.frm.frame).trans k1
    generalize Fpdf.restoreFont E (Fpdf.pageLines g0 sv.lw) sv = g1 at e1 hg t1' w1' k1' ⊢
    by_cases hc : sv.family ≠ [] ∧ g1.err ≠ none
    · rw [if_pos hc] at hg; exact absurd hg hc.2
    rw [if_neg hc] at hg ⊢
    have i1 := b1.even' e1
    have s1 := hs.mono i1.2
    have e2 := pageColors_even g1 sv s1
    have hpg2 : (g1.pageColors sv).page = g0.page := frame_page (e1.trans e2).emits.frm.frame
    have hp2 : (g1.pageColors sv).page ≠ 0 := by rw [hpg2]; exact b5
    obtain ⟨t2, f2, d2, w2, k2⟩ := pageColors_pt t1' sv s1 hsc rfl rfl
    have i2 := b1.even' (e1.trans e2)
    have ap2 : AP (g1.pageColors sv) := by
      refine ⟨i2.1, ⟨by rw [f2]; exact hsc.fc, by rw [d2]; exact hsc.dc⟩, ?_, fun _ => ?_⟩
      · rw [hpg2, emits_len (e1.trans e2).emits]; exact hlast
      · have := t2.read
        unfold remembered
        rw [f2, d2, w2, w1', k2, k1']
        exact this
    generalize g1.pageColors sv = g2 at e2 hg hp2 ap2 i2 t2 ⊢
    have q3 := hcb.runHeader g2 hp2
    generalize g2.runHeader cb = g3 at q3 hg ⊢
    have e4 := (restoreLine_even g3 sv).trans (restoreFont_even _ E sv)
    have hpt : Pt g3 (remembered g3) → Pt (Fpdf.restoreFont E (g3.restoreLine sv) sv) (remembered (Fpdf.restoreFont E (g3.restoreLine sv) sv)) ∧ (Fpdf.restoreFont E (g3.restoreLine sv) sv).c = g3.c := by
      intro h
      obtain ⟨r1, r2, r3⟩ := restoreLine_pt h sv
      have cf := restoreFont_calm (g3.restoreLine sv) E sv
      exact ⟨by rw [remembered_congr cf.c cf.width (frame_k cf.emits.frm.frame)]; exact r1.calm cf, cf.c.trans r2⟩
    generalize Fpdf.restoreFont E (g3.restoreLine sv) sv = g4 at e4 hg hpt ⊢
    by_cases hc : sv.family ≠ [] ∧ g4.err ≠ none
    · rw [if_pos hc] at hg; exact absurd hg hc.2
    rw [if_neg hc] at hg ⊢
    have h4 : g4.err = none := none_of (restoreColors_frm g4 sv).latch hg
    have h3 : g3.err = none := none_of e4.emits.frm.latch h4
    obtain ⟨a3, r3, n3⟩ := q3.2 h3 ap2
    have st3 := (q3.1.2.keep h3 t2.state).1
    have n2 := t2.nest
    have t3 : Pt g3 (remembered g3) := ⟨a3.p.inv, st3, n3.trans n2, a3.a.read st3⟩
    obtain ⟨t4, c4⟩ := hpt t3
    have i4 := a3.p.even' e4
    have r4 := i2.2.trans (r3.trans i4.2)
    have e5 := restoreColors_even g4 sv (hs.mono r4)
    obtain ⟨i5, r5⟩ := i4.1.even' e5
    obtain ⟨t5, c5⟩ := restoreColors_pt t4 sv (hs.mono r4) hsc (by rw [c4]; exact a3.a.cols)
    refine ⟨⟨i5, c5, ?_, fun _ => t5.read⟩, c2.trans (r4.trans r5), t5.nest.trans hn.symm⟩
    have e45 := e4.trans e5
    rw [frame_page e45.emits.frm.frame, emits_len e45.emits]
    exact a3.a.last
  · refine .inl ⟨hn, ?_⟩
    have h1 := beginpage_page (f.leavePage cb) o sz hle
    have h2 : ((f.leavePage cb).beginpage o sz).pages.length = (f.leavePage cb).pages.length + 1 := by
      rw [h1.2.1]; simp
    have h3 := ((beginpage_open (f.leavePage cb) o sz).page hol.1)
    have h4 := (htail.1.page h3.1).2.2
    have := hol.2.2
    omega

end


theorem CbA.flowRel {cb : Cb} (hcb : CbA cb) (E : Ext) : FlowRel E cb AQ where
  refl := AQ.refl
  trans := fun _ _ _ => AQ.trans
  step := fun f g h => (AG.calm ⟨h.emits, lvl_core h.core, by have e := congrArg (fun f : Fpdf => f.c) h.core; exact e, by have e := congrArg (fun f : Fpdf => f.line.width) h.core; exact e⟩).qr
  accept := fun f => (hcb.accept f).qr
  page := fun f o sz => addPage_aq hcb E f o sz
  img := fun f g info a b c d h hi => by
    refine ⟨h.1.trans (OB.of_frm (Frm.out _ _)), fun hg hf => ?_⟩
    have hge : g.err = none := none_of (Frm.out g _).latch hg
    rcases h.2 hge hf with ⟨h1, h2⟩ | ⟨h1, h2, h3⟩
    · refine .inl ⟨h1, ?_⟩
      have := ((OB.of_frm (Frm.out g (sprintf "q %.5f 0 0 %.5f %.5f %.5f cm /I%s Do Q" [.f a, .f b, .f c, .f d, .s info.i]))).1.page (h.1.1.page hf.p.page_lt).1).2.2
      exact Nat.lt_of_lt_of_le h2 this
    · have o := out_pt g (sprintf "q %.5f 0 0 %.5f %.5f %.5f cm /I%s Do Q" [.f a, .f b, .f c, .f d, .s info.i])
      have e : Calm g _ := ⟨img_emits g info a b c d (hi.mono h2), lvl_out _ _, o.1, by have e := congrArg (fun l : LineSt => l.width) o.2.1; exact e⟩
      obtain ⟨i1, i2⟩ := h1.calm e
      exact .inr ⟨i1, h2.trans i2, (lvl_nest e.lvl).trans h3⟩
  own := fun f op h => by
    have e : Calm f (f.exec E cb op) := by
      refine ⟨exec_steady E cb f op (helper_stays h) ?_ (helper_drawOk h E f), helper_lvl f op h, ?_, ?_⟩
      · cases op <;> first | rfl | simp [helper] at h
      · exact foot_get (fun f => f.c) E cb f op (helper_stays h) (fun f => by cases op <;> first | rfl | simp [helper] at h)
      · exact foot_get (fun f => f.line.width) E cb f op (helper_stays h) (fun f => by cases op <;> first | rfl | simp [helper] at h)
    exact (AG.calm e).qr

/-! ### The calls that set attributes -/

theorem out_len (f : Fpdf) (s : Bytes) : (f.out s).pages.length = f.pages.length := by
  unfold Fpdf.out; split
  · exact modifyAt_length _ _ _
  · rfl

theorem AInv.put {f g : Fpdf} {s : Bytes} {is : List Instr} (h : AInv f) (hp : PInv f) (hn : nestOf f = 0) (h1 : g.pages = f.pages) (h2 : g.page = f.page) (h3 : g.state = f.state) (h4 : nestOf g = nestOf f)
    (hc : Cols g.c) (hf : Frag s is) (hr : ∀ st, attrRun (remembered f, st) is = (remembered g, st)) : AInv (if g.page > 0 then g.out s else g) := by
  rcases hp.at_ with ⟨a1, a2, a3, a4, a5⟩ | ⟨hs, hp1, hp2⟩
  · rw [if_neg (by omega)]
    exact ⟨hc, by rw [h1, h2]; exact h.last, fun hx => by omega⟩
  · rw [if_pos (by omega)]
    have o := out_pt g s
    refine ⟨by rw [o.1]; exact hc, ?_, fun _ => ?_⟩
    · rw [frame_page (frame_out g s), out_len, h1, h2]; exact h.last
    · rw [remembered_congr o.1 (by have e := congrArg (fun l : LineSt => l.width) o.2.1; exact e) o.2.2]
      exact ((h.read hs).same h1 h2 h4).set (h3.trans hs) (h4.trans hn) hf hr

theorem AInv.same {f g : Fpdf} (h : AInv f) (h1 : g.pages = f.pages) (h2 : g.page = f.page) (h3 : g.state = f.state) (h4 : nestOf g = nestOf f)
    (h5 : g.c.fill = f.c.fill) (h6 : g.c.draw = f.c.draw) (h7 : g.line.width = f.line.width) (h8 : g.k = f.k) : AInv g := by
  refine ⟨⟨by rw [h5]; exact h.cols.fill, by rw [h6]; exact h.cols.draw⟩, by rw [h1, h2]; exact h.last, fun hx => ?_⟩
  have e : remembered g = remembered f := by unfold remembered; rw [h5, h6, h7, h8]
  rw [e]
  exact (h.read (h3.symm.trans hx)).same h1 h2 h4

theorem getSpot_same (f : Fpdf) (name : Bytes) : ∃ e, (f.getSpotColor name).1 = { f with err := e } := by
  unfold Fpdf.getSpotColor
  split
  · split
    · exact ⟨_, rfl⟩
    · unfold Fpdf.assignErr
      exact ⟨_, rfl⟩
  · exact ⟨f.err, rfl⟩

theorem AInv.setter {E : Ext} {cb : Cb} {f : Fpdf} (h : AInv f) (hp : PInv f) (hn : nestOf f = 0) (op : Op) (hs : setsAttr op = true) : AInv (f.exec E cb op) := by
  have spot : ∀ name, AInv (f.getSpotColor name).1 ∧ PInv (f.getSpotColor name).1 ∧ nestOf (f.getSpotColor name).1 = 0 := by
    intro name
    obtain ⟨e, he⟩ := getSpot_same f name
    rw [he]
    exact ⟨h.same rfl rfl rfl rfl rfl rfl rfl rfl, ⟨hp.at_, hp.last, hp.pages, ⟨hp.inv.draw, hp.inv.fill, hp.inv.text, hp.inv.font, hp.inv.fonts, hp.inv.imgs, hp.inv.bmap⟩⟩, hn⟩
  cases op with
  | setDrawColor r g b => exact h.put hp hn rfl rfl rfl rfl ⟨h.cols.fill, rgb_setsStroke r g b⟩ (rgb_setsStroke r g b).run.1 ((rgb_setsStroke r g b).run.2 _)
  | setFillColor r g b => exact h.put hp hn rfl rfl rfl rfl ⟨rgb_setsFill r g b, h.cols.draw⟩ (rgb_setsFill r g b).run.1 ((rgb_setsFill r g b).run.2 _)
  | setTextColor r g b => exact h.same rfl rfl rfl rfl rfl rfl rfl rfl
  | setLineWidth w => exact h.put hp hn rfl rfl rfl rfl h.cols (width_frag (w * f.k)) (fun _ => rfl)
  | setDrawSpotColor name t =>
    show AInv (f.setDrawSpotColor name t)
    unfold Fpdf.setDrawSpotColor
    obtain ⟨s1, s2, s3⟩ := spot name
    generalize f.getSpotColor name = q at *
    rcases q with ⟨g, _ | clr⟩
    · exact s1
    · exact s1.put s2 s3 rfl rfl rfl rfl ⟨s1.cols.fill, spot_setsStroke _ _⟩ (spot_setsStroke _ _).run.1 ((spot_setsStroke _ _).run.2 _)
  | setFillSpotColor name t =>
    show AInv (f.setFillSpotColor name t)
    unfold Fpdf.setFillSpotColor
    obtain ⟨s1, s2, s3⟩ := spot name
    generalize f.getSpotColor name = q at *
    rcases q with ⟨g, _ | clr⟩
    · exact s1
    · exact s1.put s2 s3 rfl rfl rfl rfl ⟨spot_setsFill _ _, s1.cols.draw⟩ (spot_setsFill _ _).run.1 ((spot_setsFill _ _).run.2 _)
  | setTextSpotColor name t =>
    show AInv (f.setTextSpotColor name t)
    unfold Fpdf.setTextSpotColor
    obtain ⟨s1, s2, s3⟩ := spot name
    generalize f.getSpotColor name = q at *
    rcases q with ⟨g, _ | clr⟩
    · exact s1
    · exact s1.same rfl rfl rfl rfl rfl rfl rfl rfl
  | _ => simp [setsAttr] at hs

theorem exec_ar {E : Ext} (f : Fpdf) (op : Op) (cb : Cb) (hop : (steady E).op f cb op) (hcb : Cb.Rel (steady E).cb AR cb) : AR f (f.exec E cb op) := by
  obtain ⟨⟨hpf, hd, hsp, hbl, hnp, ht⟩, hns, hset⟩ := hop
  have hq : CbA cb := CbA.of hcb ht
  have KO := OB.turnRel (E := E) hq.ob
  have hob : OB f (f.exec E cb op) := by
    refine KO.exec f op (fun n _ => setPage_ob f n) (fun h => absurd h hpf.2.2.1) hpf.1 hpf.2.1
  have fromQ : AQ f (f.exec E cb op) → AR f (f.exec E cb op) := by
    intro h
    refine ⟨hob, fun hg hf => ?_⟩
    rcases h.2 hg hf with ⟨h1, h2⟩ | ⟨h1, h2, _⟩
    · have := hnp h1; omega
    · exact ⟨h1, h2⟩
  rcases op_cases op with h | h | rfl | ⟨o, sz, rfl⟩ | ⟨n, rfl⟩ | rfl | ⟨b, rfl⟩ | rfl
  · refine ⟨hob, fun hg hf => ?_⟩
    have hE := exec_emits E cb f op h hd
    have hP : PInv (f.exec E cb op) ∧ RegsLe (regsOf f) (regsOf (f.exec E cb op)) := by
      rcases hf.p.at_ with ⟨a1, a2, a3, a4, a5⟩ | ⟨hs, _⟩
      · exact hf.p.even' ⟨hE, setup_lvl f op h (hpf.2.2.2 a2)⟩
      · refine hf.p.emits hs hE (fun hx => ?_)
        rcases stay_lay f op h hx with hx | ⟨i, hi⟩
        · exact .inl hx
        · exact .inr (hbl i hi)
    refine ⟨⟨hP.1, ?_⟩, hP.2⟩
    cases ha : setsAttr op with
    | true => exact hf.a.setter hf.p (hset ha) op ha
    | false =>
      refine hf.a.emits hf.p.inv (fun _ => emits_len hE) (exec_steady E cb f op h ha hd) ?_ ?_
      · exact foot_get (fun f => f.c) E cb f op h (fun f => by cases op <;> first | rfl | simp [setsAttr] at ha)
      · exact foot_get (fun f => f.line.width) E cb f op h (fun f => by cases op <;> first | rfl | simp [setsAttr] at ha)
  · exact fromQ (exec_flow (hq.flowRel E) f op h)
  · refine fromQ ?_
    show AQ f (f.addPage E cb)
    unfold Fpdf.addPage
    split
    · exact AQ.refl f
    · exact addPage_aq hq E f _ _
  · exact fromQ (addPage_aq hq E f o sz)
  · exact absurd rfl (hns n)
  · exact absurd rfl hpf.1
  · exact absurd rfl (hpf.2.1 b)
  · exact absurd rfl hpf.2.2.1

theorem reach_ar {E : Ext} {f g : Fpdf} (h : Reach E (steady E) f g) : AR f g :=
  Reach.rel (G := steady E) AR AR.refl (fun _ _ _ => AR.trans) (fun f op cb => exec_ar f op cb) h

theorem reach_steady {E : Ext} {f g : Fpdf} (h : Reach E (steady E) f g) : Reach E (tidy E) f g := Reach.mono (G := steady E) (fun _ _ _ h => h.1) (fun _ h => h) h

end Verif.Proof
