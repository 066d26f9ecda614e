import Verif.Proof.Doc
/-
The contents of all pages, through all programs: what is on a page is a sequence of instructions that keeps graphics states and sections in order and names only
resources that exist.
-/
namespace Verif.Proof
open Verif Verif.Model Verif.Spec

/-- Nesting and open layer. -/
def lvl (f : Fpdf) := (f.clipNest, f.transformNest, f.layer.currentLayer)

theorem lvl_nest {f g : Fpdf} (h : lvl g = lvl f) : nestOf g = nestOf f := by
  have h1 : g.clipNest = f.clipNest := congrArg (·.1) h
  have h2 : g.transformNest = f.transformNest := congrArg (·.2.1) h
  simp [nestOf, h1, h2]
theorem lvl_lay {f g : Fpdf} (h : lvl g = lvl f) : layOf g = layOf f := by
  have h1 : g.layer.currentLayer = f.layer.currentLayer := congrArg (·.2.2) h
  simp [layOf, h1]
theorem lvl_ink {g h : Fpdf} (e : ink g = ink h) : lvl g = lvl h := by have h' := congrArg lvl e; exact h'
theorem lvl_font {g h : Fpdf} (e : inkFont g = inkFont h) : lvl g = lvl h := by have h' := congrArg lvl e; exact h'
theorem lvl_core {g h : Fpdf} (e : core g = core h) : lvl g = lvl h := by have h' := congrArg lvl e; exact h'
theorem lvl_out (f : Fpdf) (s : Bytes) : lvl (f.out s) = lvl f := lvl_ink (out_ink f s)
theorem lvl_ite {c : Prop} [Decidable c] {g h k : Fpdf} (h1 : lvl g = lvl k) (h2 : lvl h = lvl k) : lvl (if c then g else h) = lvl k := by
  split <;> assumption

/-! ### The steps of `AddPage` -/

/-- A drawing step that leaves the nesting alone. -/
structure Even (f g : Fpdf) : Prop where
  emits : EmitsL f g
  lvl : lvl g = lvl f

theorem Even.refl (f : Fpdf) : Even f f := ⟨EmitsL.refl f, rfl⟩
theorem Even.trans {f g h : Fpdf} (a : Even f g) (b : Even g h) : Even f h := ⟨a.emits.trans b.emits, b.lvl.trans a.lvl⟩
theorem Even.ite {f g h : Fpdf} {c : Prop} [Decidable c] (h1 : c → Even f g) (h2 : ¬ c → Even f h) : Even f (if c then g else h) := by
  split
  · exact h1 ‹_›
  · exact h2 ‹_›

section
variable (f : Fpdf)

theorem even_width (w : Rat) : Even f { f with line.width := w } := ⟨EmitsL.upd rfl rfl id, rfl⟩

theorem even_w (w x : Rat) : Even f (({ f with line.width := w } : Fpdf).outf "%.2f w" [.f x]) := by
  have h3 := even_width f w
  generalize ({ f with line.width := w } : Fpdf) = g at h3 ⊢
  have h4 : Even g (g.outf "%.2f w" [.f x]) := ⟨EmitsL.outf rfl rfl rfl rfl, lvl_out _ _⟩
  exact h3.trans h4

theorem pageLines_even (lw : Rat) : Even f (f.pageLines lw) := by
  unfold Fpdf.pageLines
  dsimp only
  have h1 : Even f (f.outf "%d J" [.d f.line.cap]) := ⟨EmitsL.outf rfl rfl rfl rfl, lvl_out _ _⟩
  generalize f.outf "%d J" [.d f.line.cap] = g1 at h1 ⊢
  have h2 : Even g1 (g1.outf "%d j" [.d g1.line.join]) := ⟨EmitsL.outf rfl rfl rfl rfl, lvl_out _ _⟩
  generalize g1.outf "%d j" [.d g1.line.join] = g2 at h2 ⊢
  have h4 := even_w g2 lw (lw * g2.k)
  generalize ({ g2 with line.width := lw } : Fpdf).outf "%.2f w" [.f (lw * g2.k)] = g4 at h4 ⊢
  refine ((h1.trans h2).trans h4).trans (Even.ite (fun _ => ⟨(outputDashPattern_emits g4).loose, lvl_out _ _⟩) (fun _ => Even.refl _))

theorem restoreFont_even (E : Ext) (s : Fpdf.Saved) : Even f (f.restoreFont E s) := by
  unfold Fpdf.restoreFont
  exact Even.ite (fun _ => ⟨exec_emits E {} f (.setFont s.family s.style s.size) rfl trivial, lvl_font (setFont_ink E f _ _ _)⟩) (fun _ => Even.refl f)

theorem out_even (s : Bytes) (h : ColOk (regsOf f) s) : Even f (f.out s) :=
  ⟨EmitsL.out (fun _ => h), lvl_out _ _⟩

theorem draw_even (c : Color) (h : ColOk (regsOf f) c.str) : Even f { f with c.draw := c } :=
  ⟨EmitsL.reg rfl id (fun _ => RegsLe.refl _) rfl rfl (fun hi => ⟨h, hi.fill, hi.text, hi.font, hi.fonts, hi.imgs, hi.bmap⟩), rfl⟩
theorem fill_even (c : Color) (h : ColOk (regsOf f) c.str) : Even f { f with c.fill := c } :=
  ⟨EmitsL.reg rfl id (fun _ => RegsLe.refl _) rfl rfl (fun hi => ⟨hi.draw, h, hi.text, hi.font, hi.fonts, hi.imgs, hi.bmap⟩), rfl⟩
theorem text_even (c : Color) (b : Bool) (h : ColOk (regsOf f) c.str) : Even f { f with c.text := c, c.colorFlag := b } :=
  ⟨EmitsL.reg rfl id (fun _ => RegsLe.refl _) rfl rfl (fun hi => ⟨hi.draw, hi.fill, h, hi.font, hi.fonts, hi.imgs, hi.bmap⟩), rfl⟩

/-- The saved colours can be written. -/
structure SavedOk (r : Regs) (s : Fpdf.Saved) : Prop where
  dc : ColOk r s.dc.str
  fc : ColOk r s.fc.str
  tc : ColOk r s.tc.str

omit f in
theorem SavedOk.mono {a b : Regs} (h : RegsLe a b) {s : Fpdf.Saved} (hs : SavedOk a s) : SavedOk b s := ⟨hs.dc.mono h, hs.fc.mono h, hs.tc.mono h⟩

theorem regs_out (s : Bytes) : regsOf (f.out s) = regsOf f := rest_regs (rest_out f s)

theorem pageColors_even (s : Fpdf.Saved) (h : SavedOk (regsOf f) s) : Even f (f.pageColors s) := by
  unfold Fpdf.pageColors
  dsimp only
  have h1 : Even f (if s.dc.str ≠ B "0 G" then ({ f with c.draw := s.dc } : Fpdf).out s.dc.str else { f with c.draw := s.dc }) :=
    (draw_even f s.dc h.dc).trans (Even.ite (fun _ => out_even _ _ h.dc) (fun _ => Even.refl _))
  have r1 : regsOf (if s.dc.str ≠ B "0 G" then ({ f with c.draw := s.dc } : Fpdf).out s.dc.str else { f with c.draw := s.dc }) = regsOf f := by
    split
    · exact (regs_out _ _).trans rfl
    · rfl
  generalize (if s.dc.str ≠ B "0 G" then ({ f with c.draw := s.dc } : Fpdf).out s.dc.str else { f with c.draw := s.dc }) = g at h1 r1 ⊢
  rw [← r1] at h
  have h2 : Even g (if s.fc.str ≠ B "0 g" then ({ g with c.fill := s.fc } : Fpdf).out s.fc.str else { g with c.fill := s.fc }) :=
    (fill_even g s.fc h.fc).trans (Even.ite (fun _ => out_even _ _ h.fc) (fun _ => Even.refl _))
  have r2 : regsOf (if s.fc.str ≠ B "0 g" then ({ g with c.fill := s.fc } : Fpdf).out s.fc.str else { g with c.fill := s.fc }) = regsOf g := by
    split
    · exact (regs_out _ _).trans rfl
    · rfl
  generalize (if s.fc.str ≠ B "0 g" then ({ g with c.fill := s.fc } : Fpdf).out s.fc.str else { g with c.fill := s.fc }) = g2 at h2 r2 ⊢
  rw [← r2] at h
  exact (h1.trans h2).trans (text_even g2 s.tc s.cf h.tc)

theorem restoreLine_even (s : Fpdf.Saved) : Even f (f.restoreLine s) := by
  unfold Fpdf.restoreLine
  dsimp only
  refine Even.ite (fun _ => ?_) (fun _ => Even.refl f)
  exact even_w f s.lw _

theorem restoreColors_even (s : Fpdf.Saved) (h : SavedOk (regsOf f) s) : Even f (f.restoreColors s) := by
  unfold Fpdf.restoreColors
  dsimp only
  have h1 : Even f (if f.c.draw.str ≠ s.dc.str then ({ f with c.draw := s.dc } : Fpdf).out s.dc.str else f) :=
    Even.ite (fun _ => (draw_even f s.dc h.dc).trans (out_even _ _ h.dc)) (fun _ => Even.refl _)
  have r1 : regsOf (if f.c.draw.str ≠ s.dc.str then ({ f with c.draw := s.dc } : Fpdf).out s.dc.str else f) = regsOf f := by
    split
    · exact (regs_out _ _).trans rfl
    · rfl
  generalize (if f.c.draw.str ≠ s.dc.str then ({ f with c.draw := s.dc } : Fpdf).out s.dc.str else f) = g at h1 r1 ⊢
  rw [← r1] at h
  have h2 : Even g (if g.c.fill.str ≠ s.fc.str then ({ g with c.fill := s.fc } : Fpdf).out s.fc.str else g) :=
    Even.ite (fun _ => (fill_even g s.fc h.fc).trans (out_even _ _ h.fc)) (fun _ => Even.refl _)
  have r2 : regsOf (if g.c.fill.str ≠ s.fc.str then ({ g with c.fill := s.fc } : Fpdf).out s.fc.str else g) = regsOf g := by
    split
    · exact (regs_out _ _).trans rfl
    · rfl
  generalize (if g.c.fill.str ≠ s.fc.str then ({ g with c.fill := s.fc } : Fpdf).out s.fc.str else g) = g2 at h2 r2 ⊢
  rw [← r2] at h
  exact (h1.trans h2).trans (text_even g2 s.tc s.cf h.tc)

end

/-! ### The invariant -/

/-- The content `b` of a page brings nesting and layer to `s`, and names only resources in `r`. -/
def PageOk (r : Regs) (s : Nest) (b : Bytes) : Prop := ∃ is, Lines b is ∧ (∀ i ∈ is, Resolved r i) ∧ nestRun (0, false) is = some s

theorem PageOk.mono {a b : Regs} (h : RegsLe a b) {s : Nest} {c : Bytes} (hp : PageOk a s c) : PageOk b s c := by
  obtain ⟨is, h1, h2, h3⟩ := hp
  exact ⟨is, h1, fun i hi => (h2 i hi).mono h, h3⟩

theorem PageOk.nil (r : Regs) : PageOk r (0, false) [] := ⟨[], Lines.nil, by simp, rfl⟩

/-- The invariant on a document that is being written. -/
structure PInv (f : Fpdf) : Prop where
  at_ : (f.state = 0 ∧ f.page = 0 ∧ f.pages.length = 1 ∧ nestOf f = 0 ∧ layOf f = false) ∨ (f.state = 2 ∧ 1 ≤ f.page ∧ f.page < f.pages.length)
  last : layOf f = true → f.page + 1 = f.pages.length
  pages : ∀ n b, 1 ≤ n → f.pages[n]? = some b → PageOk (regsOf f) (if n = f.page then (nestOf f, layOf f) else (0, false)) b
  inv : Inv f

/-- The invariant between two pages. -/
structure Closed (f : Fpdf) : Prop where
  page : f.page < f.pages.length
  nest : nestOf f = 0
  lay : layOf f = false
  pages : ∀ n b, 1 ≤ n → f.pages[n]? = some b → PageOk (regsOf f) (0, false) b
  inv : Inv f

/-- Drawing on a page. -/
theorem PInv.emits {f g : Fpdf} (h : PInv f) (hs : f.state = 2) (he : EmitsL f g) (hl : layOf g = true → layOf f = true ∨ f.page + 1 = f.pages.length) :
    PInv g ∧ RegsLe (regsOf f) (regsOf g) := by
  obtain ⟨is, hw⟩ := he.wr h.inv
  obtain ⟨b, ⟨hp, hbuf⟩, hb⟩ := hw.app
  rw [if_pos hs] at hp
  have h1 := frame_page he.frm.frame
  have h2 := frame_state he.frm.frame
  have hlen : g.pages.length = f.pages.length := by rw [hp, modifyAt_length]
  have hpg : 1 ≤ f.page ∧ f.page < f.pages.length := by
    rcases h.at_ with h3 | h3
    · exact absurd (h3.1.symm.trans hs) (by decide)
    · exact h3.2
  refine ⟨⟨.inr ⟨h2.trans hs, ?_⟩, ?_, ?_, hw.inv⟩, hw.regs⟩
  · rw [h1, hlen]; exact hpg
  · intro hx
    rw [h1, hlen]
    rcases hl hx with hx | hx
    · exact h.last hx
    · exact hx
  · intro n c hn hc
    rw [hp, modifyAt_getElem?] at hc
    rw [h1]
    by_cases hnp : n = f.page
    · rw [if_pos hnp] at hc ⊢
      cases hfc : f.pages[n]? with
      | none => rw [hfc] at hc; cases hc
      | some c0 =>
        rw [hfc] at hc
        cases hc
        have := h.pages n c0 hn hfc
        rw [if_pos hnp] at this
        obtain ⟨is0, k1, k2, k3⟩ := this
        refine ⟨is0 ++ is, k1.append hb, ?_, ?_⟩
        · intro i hi
          rcases List.mem_append.mp hi with hi | hi
          · exact (k2 i hi).mono hw.regs
          · exact hw.res i hi
        · rw [nestRun_append, k3]
          have := hw.nest 0
          simp only [Nat.zero_add] at this
          exact this
    · rw [if_neg hnp] at hc ⊢
      have := h.pages n c hn hc
      rw [if_neg hnp] at this
      exact this.mono hw.regs

theorem PInv.even {f g : Fpdf} (h : PInv f) (hs : f.state = 2) (he : Even f g) : PInv g ∧ RegsLe (regsOf f) (regsOf g) :=
  h.emits hs he.emits (fun hx => .inl (by rw [← lvl_lay he.lvl]; exact hx))

theorem PInv.flags {f : Fpdf} (h : PInv f) (a b : Bool) (c : List CbEvent) : PInv { f with inHeader := a, inFooter := b, log := c } :=
  ⟨h.at_, h.last, h.pages, h.inv⟩

theorem PInv.state {f : Fpdf} (h : PInv f) (hp : f.page ≠ 0) : f.state = 2 := by
  rcases h.at_ with h1 | h1
  · exact absurd h1.2.1 hp
  · exact h1.1

theorem Inv'.congr {f g : Fpdf} (h : rest g = rest f) (hi : Inv f) : Inv g := rest_inv h hi

/-- Going to the last page. -/
theorem PInv.goLast {f : Fpdf} (h : PInv f) (hs : f.state = 2) (hn : nestOf f = 0) : PInv { f with page := f.pages.length - 1 } := by
  have hpg : 1 ≤ f.page ∧ f.page < f.pages.length := by
    rcases h.at_ with h3 | h3
    · exact absurd (h3.1.symm.trans hs) (by decide)
    · exact h3.2
  refine ⟨.inr ⟨hs, by show 1 ≤ f.pages.length - 1; omega, by show f.pages.length - 1 < f.pages.length; omega⟩, fun _ => by show f.pages.length - 1 + 1 = f.pages.length; omega, ?_, h.inv⟩
  intro n b hn1 hb
  have h1 := h.pages n b hn1 hb
  by_cases hl : layOf f = true
  · have h2 := h.last hl
    show PageOk (regsOf f) (if n = f.pages.length - 1 then (nestOf f, layOf f) else (0, false)) b
    rw [show f.pages.length - 1 = f.page by omega]
    exact h1
  · have hl : layOf f = false := by simpa using hl
    show PageOk (regsOf f) (if n = f.pages.length - 1 then (nestOf f, layOf f) else (0, false)) b
    rw [hn, hl] at h1 ⊢
    simp only [ite_self] at h1 ⊢
    exact h1

theorem PInv.goTo {f : Fpdf} (h : PInv f) (hn : nestOf f = 0) (hl : layOf f = false) (n : Int) : PInv (f.setPage n) := by
  unfold Fpdf.setPage
  split
  · next hc =>
    have h2 : f.state = 2 := by
      rcases h.at_ with h3 | h3
      · omega
      · exact h3.1
    refine ⟨.inr ⟨h2, by show 1 ≤ n.toNat; omega, by show n.toNat < f.pages.length; omega⟩, fun hx => ?_, ?_, h.inv⟩
    · exact absurd (show layOf f = true from hx) (by simp [hl])
    · intro m b hm hb
      have h1 := h.pages m b hm hb
      show PageOk (regsOf f) (if m = n.toNat then (nestOf f, layOf f) else (0, false)) b
      rw [hn, hl] at h1 ⊢
      simp only [ite_self] at h1 ⊢
      exact h1
  · exact h

/-- Ending a page. -/
theorem endLayer_lay (f : Fpdf) : layOf f.endLayer = false := by
  unfold Fpdf.endLayer
  cases h : f.layer.currentLayer with
  | none => simp [layOf, h]
  | some i =>
    dsimp only
    rfl

theorem endLayer_nest (f : Fpdf) : nestOf f.endLayer = nestOf f := by
  unfold Fpdf.endLayer
  cases h : f.layer.currentLayer with
  | none => rfl
  | some i =>
    exact Eq.trans (b := nestOf (f.out (B "EMC"))) rfl (lvl_nest (lvl_out f _))

theorem PInv.close {f : Fpdf} (h : PInv f) (hs : f.state = 2) (hn : nestOf f = 0) : Closed f.endpage ∧ RegsLe (regsOf f) (regsOf f.endpage) := by
  have h1 := h.emits hs (exec_emits {} {} f .endLayer rfl trivial) (fun hx => by
    rw [show f.exec {} {} .endLayer = f.endLayer from rfl, endLayer_lay] at hx; cases hx)
  rw [show f.exec {} {} .endLayer = f.endLayer from rfl] at h1
  have hl := endLayer_lay f
  have hn' := (endLayer_nest f).trans hn
  unfold Fpdf.endpage
  dsimp only
  generalize f.endLayer = g at h1 hl hn' ⊢
  refine ⟨⟨?_, hn', hl, ?_, h1.1.inv⟩, h1.2⟩
  · rcases h1.1.at_ with h3 | h3
    · show g.page < g.pages.length; omega
    · exact h3.2.2
  · intro n b hn1 hb
    have h4 := h1.1.pages n b hn1 hb
    rw [hn', hl] at h4
    simp only [ite_self] at h4
    exact h4

/-- Beginning a page. -/
theorem Closed.begin {f : Fpdf} (h : Closed f) (he : f.err = none) (o : Bytes) (sz : Size) :
    PInv (f.beginpage o sz) ∧ regsOf (f.beginpage o sz) = regsOf f ∧ lvl (f.beginpage o sz) = lvl f ∧ (f.beginpage o sz).state = 2 ∧ (f.beginpage o sz).page ≠ 0 ∧
      (f.beginpage o sz).pages.length = f.pages.length + 1 := by
  obtain ⟨p1, p2, _, _, p5, _⟩ := beginpage_page f o sz he
  have hr : rest (f.beginpage o sz) = rest f ∧ (f.beginpage o sz).pages = f.pages ++ [[]] := by
    unfold Fpdf.beginpage
    rw [if_neg (by simp [he])]
    dsimp only
    generalize Fpdf.orientLetter _ o = ol
    split <;> split <;> exact ⟨rfl, rfl⟩
  have hlv : lvl (f.beginpage o sz) = lvl f := by
    have := congrArg (fun r => (r.2.2.2.2.2.1, r.2.2.2.2.2.2.1, r.2.2.2.2.2.2.2.1)) hr.1
    exact this
  obtain ⟨hr, hpg⟩ := hr
  generalize f.beginpage o sz = g at *
  have hlen : g.pages.length = f.pages.length + 1 := by rw [hpg]; simp
  have hn : nestOf g = 0 := (lvl_nest hlv).trans h.nest
  have hl : layOf g = false := (lvl_lay hlv).trans h.lay
  refine ⟨⟨.inr ⟨p5, by omega, by have := h.page; omega⟩, fun hx => (by rw [hl] at hx; exact absurd hx (by decide)), ?_, rest_inv hr h.inv⟩, rest_regs hr, hlv, p5, by omega, hlen⟩
  intro n b hn1 hb
  rw [hn, hl, ite_self, rest_regs hr]
  rw [hpg] at hb
  by_cases hx : n < f.pages.length
  · rw [List.getElem?_append_left hx] at hb
    exact h.pages n b hn1 hb
  · rw [List.getElem?_append_right (by omega)] at hb
    have : b = [] := by
      cases hk : n - f.pages.length with
      | zero => rw [hk] at hb; simpa using hb.symm
      | succ k => rw [hk] at hb; simp at hb
    subst this
    exact PageOk.nil _

end Verif.Proof
