import Verif.Proof.Content
/-
Programs that open and close graphics states and layers in order, and the invariant on the contents of the pages for them.
-/
namespace Verif.Proof
open Verif Verif.Model Verif.Spec

theorem PInv.even' {f g : Fpdf} (h : PInv f) (he : Even f g) : PInv g ∧ RegsLe (regsOf f) (regsOf g) := by
  rcases h.at_ with ⟨a1, a2, a3, a4, a5⟩ | ⟨hs, _⟩
  · obtain ⟨is, hw⟩ := he.emits.wr h.inv
    obtain ⟨b, ⟨hp, _⟩, hb⟩ := hw.app
    rw [if_neg (by omega)] at hp
    refine ⟨⟨.inl ⟨(frame_state he.emits.frm.frame).trans a1, (frame_page he.emits.frm.frame).trans a2, by rw [hp]; exact a3, (lvl_nest he.lvl).trans a4, (lvl_lay he.lvl).trans a5⟩,
      fun hx => ?_, ?_, hw.inv⟩, hw.regs⟩
    · rw [lvl_lay he.lvl, a5] at hx; cases hx
    · intro n b hn hb
      rw [hp] at hb
      rw [List.getElem?_eq_none (by omega)] at hb
      cases hb
  · exact h.even hs he

/-! ### Images -/

theorem img_frag (a b c d : Rat) (id : Bytes) (h : ∀ x ∈ id, isRegular x = true) :
    ∃ ts, Frag (sprintf "q %.5f 0 0 %.5f %.5f %.5f cm /I%s Do Q" [.f a, .f b, .f c, .f d, .s id])
      [([], B "q"), (ts, B "cm"), ([.name (B "I" ++ id)], B "Do"), ([], B "Q")] ∧ Instr.names (ts, B "cm") = [] := by
  refine ⟨_, sprintf_frag "q %.5f 0 0 %.5f %.5f %.5f cm /I%s Do Q" [.f a, .f b, .f c, .f d, .reg id] rfl ?_, rfl⟩
  intro x hx
  simp only [List.mem_cons, List.not_mem_nil, or_false] at hx
  rcases hx with rfl | rfl | rfl | rfl | rfl
  · trivial
  · trivial
  · trivial
  · trivial
  · exact h

theorem img_emits (g : Fpdf) (info : ImageInfo) (a b c d : Rat) (h : ImgReg g info) :
    Emits g (g.outf "q %.5f 0 0 %.5f %.5f %.5f cm /I%s Do Q" [.f a, .f b, .f c, .f d, .s info.i]) := by
  refine Emits.out fun hi => ?_
  obtain ⟨k, p, h1, h2⟩ := h
  have hr : ∀ x ∈ info.i, isRegular x = true := hi.imgs info (List.mem_of_getElem? h2)
  obtain ⟨ts, h3, h4⟩ := img_frag a b c d info.i hr
  refine ⟨_, h3, inQ_neutral (is := [(ts, B "cm"), ([.name (B "I" ++ info.i)], B "Do")]) rfl, ?_⟩
  · intro i hi'
    simp only [List.mem_cons, List.not_mem_nil, or_false] at hi'
    rcases hi' with rfl | rfl | rfl | rfl
    · intro nm hnm; cases hnm
    · intro nm hnm; rw [h4] at hnm; cases hnm
    · intro nm hnm
      simp only [Instr.names, List.filterMap_cons, List.filterMap_nil, List.mem_singleton] at hnm
      subst hnm
      show resolves _ (B "Do") _
      simp only [resolves, show B "Do" ≠ B "gs" by decide, show B "Do" ≠ B "sh" by decide, show B "Do" ≠ B "BDC" by decide,
        show ¬ (B "Do" = B "CS" ∨ B "Do" = B "cs") by decide, show B "Do" ≠ B "Tf" by decide, if_false, if_true]
      exact .inl ⟨k, p, info, h1, h2, rfl⟩
    · intro nm hnm; cases hnm

theorem img_even (g : Fpdf) (info : ImageInfo) (a b c d : Rat) (h : ImgReg g info) :
    Even g (g.outf "q %.5f 0 0 %.5f %.5f %.5f cm /I%s Do Q" [.f a, .f b, .f c, .f d, .s info.i]) := by
  refine ⟨(img_emits g info a b c d h).loose, lvl_out _ _⟩

theorem ImgReg.mono {f g : Fpdf} (h : RegsLe (regsOf f) (regsOf g)) {info : ImageInfo} (hi : ImgReg f info) : ImgReg g info := by
  obtain ⟨k, p, h1, h2⟩ := hi
  exact ⟨k, p, h.images _ _ h1, h.heap _ _ h2⟩

/-! ### The discipline -/

/-- Header, footer and page-break functions close the graphics states they open. -/
structure CbTidy (cb : Cb) : Prop where
  header : ∀ h, cb.header = some h → ∀ s, s.page ≠ 0 → s.err = none → (h s).err = none → nestOf (h s) = nestOf s
  footer : ∀ h, cb.footer = some h → ∀ b s, s.page ≠ 0 → s.err = none → (h b s).err = none → nestOf (h b s) = nestOf s
  accept : ∀ s, s.err = none → (cb.accept s).2.err = none → nestOf (cb.accept s).2 = nestOf s

/-- Programs as in `pagesFirst` that: use the documented style strings, and none of `RoundedRect`, `RawWriteStr`, `RawWriteBuf` (`DrawOk`); change pages with
`SetPage` only when no graphics state and no layer is open; begin layers on the last page; do not let a page begin while a graphics state is open; use call-backs
that close the graphics states they open. -/
def tidy (E : Ext) : Guard :=
  { op := fun f cb op => pagesFirst.op f cb op ∧ DrawOk E f op ∧ (∀ n, op = .setPage n → nestOf f = 0 ∧ layOf f = false) ∧
      (∀ i, op = .beginLayer i → f.page + 1 = f.pages.length) ∧ (nestOf f ≠ 0 → (f.exec E cb op).pages.length = f.pages.length) ∧ CbTidy cb
    cb := pagesFirst.cb }

/-- What a piece of such a program does. -/
def PR (f g : Fpdf) : Prop := OB f g ∧ (g.err = none → PInv f → PInv g ∧ RegsLe (regsOf f) (regsOf g))

/-- … a piece that leaves the nesting as it was. -/
def QG (f g : Fpdf) : Prop := OB f g ∧ (g.err = none → PInv f → PInv g ∧ RegsLe (regsOf f) (regsOf g) ∧ nestOf g = nestOf f)

/-- … that, or a page has been begun while a graphics state was open. -/
def QR (f g : Fpdf) : Prop := OB f g ∧ (g.err = none → PInv f →
  (nestOf f ≠ 0 ∧ f.pages.length < g.pages.length) ∨ (PInv g ∧ RegsLe (regsOf f) (regsOf g) ∧ nestOf g = nestOf f))

theorem PInv.page_lt {f : Fpdf} (h : PInv f) : f.page < f.pages.length := by
  rcases h.at_ with ⟨_, h1, h2, _⟩ | h1
  · omega
  · exact h1.2.2

theorem PR.refl (f : Fpdf) : PR f f := ⟨OB.refl f, fun _ h => ⟨h, RegsLe.refl _⟩⟩
theorem PR.trans {f g h : Fpdf} (a : PR f g) (b : PR g h) : PR f h :=
  ⟨a.1.trans b.1, fun hh hf => by
    obtain ⟨h1, h2⟩ := a.2 (none_of b.1.2.latch hh) hf
    obtain ⟨h3, h4⟩ := b.2 hh h1
    exact ⟨h3, h2.trans h4⟩⟩
theorem QG.refl (f : Fpdf) : QG f f := ⟨OB.refl f, fun _ h => ⟨h, RegsLe.refl _, rfl⟩⟩
theorem QG.trans {f g h : Fpdf} (a : QG f g) (b : QG g h) : QG f h :=
  ⟨a.1.trans b.1, fun hh hf => by
    obtain ⟨h1, h2, h2'⟩ := a.2 (none_of b.1.2.latch hh) hf
    obtain ⟨h3, h4, h4'⟩ := b.2 hh h1
    exact ⟨h3, h2.trans h4, h4'.trans h2'⟩⟩
theorem QG.qr {f g : Fpdf} (h : QG f g) : QR f g := ⟨h.1, fun hg hf => .inr (h.2 hg hf)⟩
theorem QR.refl (f : Fpdf) : QR f f := (QG.refl f).qr
theorem QR.trans {f g h : Fpdf} (a : QR f g) (b : QR g h) : QR f h :=
  ⟨a.1.trans b.1, fun hh hf => by
    have ho := a.1.1.page hf.page_lt
    rcases a.2 (none_of b.1.2.latch hh) hf with ⟨h1, h2⟩ | ⟨h1, h2, h3⟩
    · exact .inl ⟨h1, Nat.lt_of_lt_of_le h2 (b.1.1.page ho.1).2.2⟩
    · rcases b.2 hh h1 with ⟨k1, k2⟩ | ⟨k1, k2, k3⟩
      · exact .inl ⟨by omega, Nat.lt_of_le_of_lt ho.2.2 k2⟩
      · exact .inr ⟨k1, h2.trans k2, k3.trans h3⟩⟩
theorem QG.even {f g : Fpdf} (h : Even f g) : QG f g :=
  ⟨OB.of_frm h.emits.frm, fun _ hf => have := hf.even' h; ⟨this.1, this.2, lvl_nest h.lvl⟩⟩
theorem QG.flags (f : Fpdf) (a b : Bool) (c : List CbEvent) : QG f { f with inHeader := a, inFooter := b, log := c } :=
  ⟨OB.flags f a b c, fun _ hf => ⟨hf.flags a b c, RegsLe.refl _, rfl⟩⟩

theorem PR.qg {f g : Fpdf} (h : PR f g) (hn : f.err = none → g.err = none → nestOf g = nestOf f) : QG f g :=
  ⟨h.1, fun hg hf => ⟨(h.2 hg hf).1, (h.2 hg hf).2, hn (none_of h.1.2.latch hg) hg⟩⟩

/-- The call-backs. -/
abbrev CbQ (cb : Cb) : Prop := Cb.Rel (fun s => s.page ≠ 0) QG cb

theorem CbQ.of {cb : Cb} (h : Cb.Rel (fun s => s.page ≠ 0) PR cb) (ht : CbTidy cb) : CbQ cb :=
  ⟨fun a ha s hs => (h.header a ha s hs).qg (ht.header a ha s hs), fun a ha b s hs => (h.footer a ha b s hs).qg (ht.footer a ha b s hs),
    fun s => (h.accept s).qg (ht.accept s)⟩

section
variable {cb : Cb} (hcb : CbQ cb)
include hcb

theorem CbQ.ob : Cb.Rel (fun s => s.page ≠ 0) OB cb :=
  ⟨fun a ha s hs => (hcb.header a ha s hs).1, fun a ha b s hs => (hcb.footer a ha b s hs).1, fun s => (hcb.accept s).1⟩

theorem CbQ.runFooter (last : Bool) (f : Fpdf) (hp : f.page ≠ 0) : QG f (f.runFooter cb last) := by
  unfold Fpdf.runFooter
  dsimp only
  cases hf : cb.footer with
  | none =>
    dsimp only
    exact (QG.flags f f.inHeader true f.log).trans (QG.flags _ f.inHeader false f.log)
  | some fn =>
    dsimp only
    refine ((QG.flags f f.inHeader true (f.log ++ [CbEvent.footer f.page last])).trans (hcb.footer fn hf last _ hp)).trans ?_
    exact QG.flags _ _ false _

theorem CbQ.runHeader (f : Fpdf) (hp : f.page ≠ 0) : QG f (f.runHeader cb) := by
  unfold Fpdf.runHeader
  cases hf : cb.header with
  | none => exact QG.refl f
  | some fn =>
    dsimp only
    have h1 : QG f { fn { f with inHeader := true, log := f.log ++ [CbEvent.header f.page] } with inHeader := false } := by
      refine ((QG.flags f true f.inFooter (f.log ++ [CbEvent.header f.page])).trans (hcb.header fn hf _ hp)).trans ?_
      exact QG.flags _ false _ _
    split
    · exact h1.trans (QG.even ⟨exec_emits {} {} _ .setHomeXY rfl trivial, rfl⟩)
    · exact h1

/-- Leaving a page. -/
theorem leave_closed (f : Fpdf) (h : PInv f) (hn : nestOf f = 0) (hg : (f.leavePage cb).err = none) :
    Closed (f.leavePage cb) ∧ RegsLe (regsOf f) (regsOf (f.leavePage cb)) := by
  unfold Fpdf.leavePage at hg ⊢
  dsimp only at hg ⊢
  rcases h.at_ with ⟨a1, a2, a3, a4, a5⟩ | ⟨hs, hp1, hp2⟩
  · rw [if_neg (show ¬ (f.page ≠ f.pages.length - 1) by omega)] at hg ⊢
    rw [if_pos a1] at hg ⊢
    rw [if_neg (show ¬ (({ f with state := 1 } : Fpdf).page > 0) by show ¬ (f.page > 0); omega)] at hg ⊢
    refine ⟨⟨h.page_lt, a4, a5, ?_, h.inv⟩, RegsLe.refl _⟩
    intro n b hn1 hb
    have hb : f.pages[n]? = some b := hb
    rw [List.getElem?_eq_none (by omega)] at hb
    cases hb
  · have h1 : PInv (if f.page ≠ f.pages.length - 1 then { f with page := f.pages.length - 1 } else f) ∧
        regsOf (if f.page ≠ f.pages.length - 1 then { f with page := f.pages.length - 1 } else f) = regsOf f ∧
        nestOf (if f.page ≠ f.pages.length - 1 then { f with page := f.pages.length - 1 } else f) = 0 ∧
        (if f.page ≠ f.pages.length - 1 then { f with page := f.pages.length - 1 } else f).state = 2 ∧
        (if f.page ≠ f.pages.length - 1 then { f with page := f.pages.length - 1 } else f).page = f.pages.length - 1 := by
      split
      · exact ⟨h.goLast hs hn, rfl, hn, hs, rfl⟩
      · exact ⟨h, rfl, hn, hs, by omega⟩
    generalize (if f.page ≠ f.pages.length - 1 then { f with page := f.pages.length - 1 } else f) = g at h1 hg ⊢
    obtain ⟨k1, k2, k3, k4, k5⟩ := h1
    rw [if_neg (show ¬ (g.state = 0) by omega)] at hg ⊢
    rw [if_pos (show g.page > 0 by omega)] at hg ⊢
    have hlat : (g.runFooter cb false).err ≠ none → (g.runFooter cb false).endpage.err ≠ none := (endLayer_frm _).latch
    have hq := hcb.runFooter false g (by omega)
    obtain ⟨q1, q2, q3⟩ := hq.2 (none_of hlat hg) k1
    have hst := (hq.1.2.keep (none_of hlat hg) k4).1
    obtain ⟨c1, c2⟩ := q1.close hst (q3.trans k3)
    exact ⟨c1, by rw [← k2]; exact q2.trans c2⟩

/-- A new page. -/
theorem addPage_qr (E : Ext) (f : Fpdf) (o : Bytes) (sz : Size) : QR f (f.addPageFormat E cb o sz) := by
  have KO := OB.turnRel (E := E) hcb.ob
  refine ⟨KO.addPageFormat f o sz, fun hg hf => ?_⟩
  have he : f.err = none := none_of (KO.addPageFormat f o sz).2.latch hg
  have htail := KO.tail f o sz he
  have hbe : ((f.leavePage cb).beginpage o sz).err = none := none_of htail.2.latch hg
  have hle : (f.leavePage cb).err = none := by
    by_cases h : (f.leavePage cb).err = none
    · exact h
    · rw [beginpage_of_err _ o sz h] at hbe; exact hbe
  have hol := (leavePage_open hcb.ob f).page hf.page_lt
  by_cases hn : nestOf f = 0
  · refine .inr ?_
    obtain ⟨c1, c2⟩ := leave_closed hcb f hf hn hle
    obtain ⟨b1, b2, b3, b4, b5, b6⟩ := c1.begin hle o sz
    have hs : SavedOk (regsOf ((f.leavePage cb).beginpage o sz)) f.save := by
      rw [b2]; exact SavedOk.mono c2 ⟨hf.inv.draw, hf.inv.fill, hf.inv.text⟩
    have hnb : nestOf ((f.leavePage cb).beginpage o sz) = 0 := (lvl_nest b3).trans c1.nest
    clear htail KO hol
    rw [← b2] at c2
    unfold Fpdf.addPageFormat at hg ⊢
    rw [if_neg (by simp [he])] at hg ⊢
    dsimp only at hg ⊢
    generalize (f.leavePage cb).beginpage o sz = g0 at *
    generalize f.save = sv at *
    have e1 := (pageLines_even g0 sv.lw).trans (restoreFont_even _ E sv)
    generalize Fpdf.restoreFont E (Fpdf.pageLines g0 sv.lw) sv = g1 at e1 hg ⊢
    by_cases hc : sv.family ≠ [] ∧ g1.err ≠ none
    · rw [if_pos hc] at hg; exact absurd hg hc.2
    rw [if_neg hc] at hg ⊢
    have i1 := b1.even' e1
    have s1 := hs.mono i1.2
    have e2 := pageColors_even g1 sv s1
    have hp2 : (g1.pageColors sv).page ≠ 0 := by rw [frame_page (e1.trans e2).emits.frm.frame]; exact b5
    generalize g1.pageColors sv = g2 at e2 hg hp2 ⊢
    have q3 := hcb.runHeader g2 hp2
    generalize g2.runHeader cb = g3 at q3 hg ⊢
    have e4 := (restoreLine_even g3 sv).trans (restoreFont_even _ E sv)
    generalize Fpdf.restoreFont E (g3.restoreLine sv) sv = g4 at e4 hg ⊢
    by_cases hc : sv.family ≠ [] ∧ g4.err ≠ none
    · rw [if_pos hc] at hg; exact absurd hg hc.2
    rw [if_neg hc] at hg ⊢
    have q4 : QG g0 g4 := ((QG.even (e1.trans e2)).trans q3).trans (QG.even e4)
    have h4 : g4.err = none := none_of (restoreColors_frm g4 sv).latch hg
    obtain ⟨i4, r4, n4⟩ := q4.2 h4 b1
    have e5 := restoreColors_even g4 sv (hs.mono r4)
    obtain ⟨i5, r5⟩ := i4.even' e5
    exact ⟨i5, c2.trans (r4.trans r5), (lvl_nest e5.lvl).trans (n4.trans (hnb.trans hn.symm))⟩
  · refine .inl ⟨hn, ?_⟩
    have h1 := beginpage_page (f.leavePage cb) o sz hle
    have h2 : ((f.leavePage cb).beginpage o sz).pages.length = (f.leavePage cb).pages.length + 1 := by
      have hpg : ((f.leavePage cb).beginpage o sz).pages = (f.leavePage cb).pages ++ [[]] := by
        unfold Fpdf.beginpage
        rw [if_neg (by simp [hle])]
        dsimp only
        generalize Fpdf.orientLetter _ o = ol
        split <;> split <;> rfl
      rw [hpg]; simp
    have h3 := ((beginpage_open (f.leavePage cb) o sz).page hol.1)
    have h4 := (htail.1.page h3.1).2.2
    have := hol.2.2
    omega

end

/-- Setters leave the nesting alone. -/
theorem foot_lvl {E : Ext} {cb : Cb} (f : Fpdf) (op : Op) (hs : staysOnPage op = true) (hq : ∀ f, lvl (foot op f) = lvl f) : lvl (f.exec E cb op) = lvl f := by
  have := congrArg lvl (exec_foot E cb f op hs)
  rw [hq, hq] at this
  exact this

theorem helper_lvl {E : Ext} {cb : Cb} (f : Fpdf) (op : Op) (h : helper op = true) : lvl (f.exec E cb op) = lvl f := by
  refine foot_lvl f op (helper_stays h) (fun f => ?_)
  cases op <;> first | rfl | simp [helper] at h

theorem setup_lvl {E : Ext} {cb : Cb} (f : Fpdf) (op : Op) (hs : staysOnPage op = true) (h : setup op = true) : lvl (f.exec E cb op) = lvl f := by
  refine foot_lvl f op hs (fun f => ?_)
  cases op <;> first | rfl | simp [setup] at h | simp [staysOnPage] at hs

theorem stay_lay {E : Ext} {cb : Cb} (f : Fpdf) (op : Op) (hs : staysOnPage op = true) (h : layOf (f.exec E cb op) = true) :
    layOf f = true ∨ ∃ i, op = .beginLayer i := by
  by_cases hb : ∃ i, op = .beginLayer i
  · exact .inr hb
  · refine .inl ?_
    by_cases he : op = .endLayer
    · subst he
      rw [show f.exec E cb .endLayer = f.endLayer from rfl, endLayer_lay] at h
      cases h
    · have hq : ∀ f, (foot op f).layer.currentLayer = f.layer.currentLayer := by
        intro f
        cases op <;> first | rfl | exact absurd rfl he | exact absurd ⟨_, rfl⟩ hb | simp [staysOnPage] at hs
      have := congrArg (fun f : Fpdf => f.layer.currentLayer) (exec_foot E cb f op hs)
      rw [hq, hq] at this
      unfold layOf at *
      rw [← this]; exact h

theorem CbQ.flowRel {cb : Cb} (hcb : CbQ cb) (E : Ext) : FlowRel E cb QR where
  refl := QR.refl
  trans := fun _ _ _ => QR.trans
  step := fun f g h => (QG.even ⟨h.emits.loose, lvl_core h.core⟩).qr
  accept := fun f => (hcb.accept f).qr
  page := fun f o sz => addPage_qr hcb E f o sz
  img := fun f g info a b c d h hi => by
    refine ⟨h.1.trans (OB.of_frm (Frm.out _ _)), fun hg hf => ?_⟩
    have hge : g.err = none := none_of (Frm.out g _).latch hg
    rcases h.2 hge hf with ⟨h1, h2⟩ | ⟨h1, h2, h3⟩
    · refine .inl ⟨h1, ?_⟩
      have := ((OB.of_frm (Frm.out g (sprintf "q %.5f 0 0 %.5f %.5f %.5f cm /I%s Do Q" [.f a, .f b, .f c, .f d, .s info.i]))).1.page (h.1.1.page hf.page_lt).1).2.2
      exact Nat.lt_of_lt_of_le h2 this
    · have e := img_even g info a b c d (hi.mono h2)
      obtain ⟨i1, i2⟩ := h1.even' e
      exact .inr ⟨i1, h2.trans i2, (lvl_nest e.lvl).trans h3⟩
  own := fun f op h => (QG.even ⟨exec_emits E cb f op (helper_stays h) (helper_drawOk h E f), helper_lvl f op h⟩).qr

theorem exec_pr {E : Ext} (f : Fpdf) (op : Op) (cb : Cb) (hop : (tidy E).op f cb op) (hcb : Cb.Rel (tidy E).cb PR cb) : PR f (f.exec E cb op) := by
  obtain ⟨hpf, hd, hsp, hbl, hnp, ht⟩ := hop
  have hq : CbQ cb := CbQ.of hcb ht
  have KO := OB.turnRel (E := E) hq.ob
  have hob : OB f (f.exec E cb op) := by
    refine KO.exec f op (fun n _ => setPage_ob f n) (fun h => absurd h hpf.2.2.1) hpf.1 hpf.2.1
  have fromQ : QR f (f.exec E cb op) → PR f (f.exec E cb op) := by
    intro h
    refine ⟨hob, fun hg hf => ?_⟩
    rcases h.2 hg hf with ⟨h1, h2⟩ | ⟨h1, h2, _⟩
    · have := hnp h1; omega
    · exact ⟨h1, h2⟩
  rcases op_cases op with h | h | rfl | ⟨o, sz, rfl⟩ | ⟨n, rfl⟩ | rfl | ⟨b, rfl⟩ | rfl
  · refine ⟨hob, fun hg hf => ?_⟩
    have hE := exec_emits E cb f op h hd
    rcases hf.at_ with ⟨a1, a2, a3, a4, a5⟩ | ⟨hs, _⟩
    · exact hf.even' ⟨hE, setup_lvl f op h (hpf.2.2.2 a2)⟩
    · refine hf.emits hs hE (fun hx => ?_)
      rcases stay_lay f op h hx with hx | ⟨i, hi⟩
      · exact .inl hx
      · exact .inr (hbl i hi)
  · exact fromQ (exec_flow (hq.flowRel E) f op h)
  · refine fromQ ?_
    show QR f (f.addPage E cb)
    unfold Fpdf.addPage
    split
    · exact QR.refl f
    · exact addPage_qr hq E f _ _
  · exact fromQ (addPage_qr hq E f o sz)
  · refine ⟨hob, fun hg hf => ?_⟩
    obtain ⟨h1, h2⟩ := hsp n rfl
    refine ⟨hf.goTo h1 h2 n, ?_⟩
    show RegsLe (regsOf f) (regsOf (f.setPage n))
    unfold Fpdf.setPage
    split <;> exact RegsLe.refl _
  · exact absurd rfl hpf.1
  · exact absurd rfl (hpf.2.1 b)
  · exact absurd rfl hpf.2.2.1

theorem reach_pr {E : Ext} {f g : Fpdf} (h : Reach E (tidy E) f g) : PR f g :=
  Reach.rel (G := tidy E) PR PR.refl (fun _ _ _ => PR.trans) (fun f op cb => exec_pr f op cb) h

theorem reach_tidy {E : Ext} {f g : Fpdf} (h : Reach E (tidy E) f g) : Reach E pagesFirst f g := Reach.mono (G := tidy E) (fun _ _ _ h => h.1) (fun _ h => h) h

theorem CbReach.tidy {E : Ext} {cb : Cb} (h : CbReach E (Proof.tidy E) cb) : CbReach E pagesFirst cb :=
  ⟨fun a ha s hs => reach_tidy (h.header a ha s hs), fun a ha b s hs => reach_tidy (h.footer a ha b s hs), fun s => reach_tidy (h.accept s)⟩

end Verif.Proof
