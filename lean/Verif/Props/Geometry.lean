import Verif.Proof.Size
import Verif.Props.File
/-
C16: the size of the pages.
-/
namespace Verif.Props
open Verif Verif.Model Verif.Spec Verif.Proof

/-- The document's orientation as `New` was asked for it is portrait. -/
def docPortrait (f : Fpdf) : Bool := f.p.defOrientation = B "P"

theorem toUpper_P (c : UInt8) : (toUpper [c] = B "P") ↔ (c = 0x50 || c = 0x70) = true := by
  have : ∀ c : Fin 256, (toUpper [UInt8.ofNat c] = B "P") ↔ (UInt8.ofNat c.1 = 0x50 || UInt8.ofNat c.1 = 0x70) = true := by decide +kernel
  have h := this ⟨c.toNat, c.toNat_lt⟩
  simpa using h

/-- The size of a page by orientation argument. -/
theorem orient_turned (f : Fpdf) (o : Bytes) (sz : Size) :
    ((Fpdf.orient (Fpdf.orientLetter f.p.defOrientation o) sz).wd, (Fpdf.orient (Fpdf.orientLetter f.p.defOrientation o) sz).ht) =
      turned (portrait (docPortrait f) o) sz.wd sz.ht := by
  have key : (Fpdf.orientLetter f.p.defOrientation o = B "P") ↔ portrait (docPortrait f) o = true := by
    unfold Fpdf.orientLetter
    cases o with
    | nil => simp [portrait, docPortrait]
    | cons c r =>
      rw [if_neg (by simp)]
      exact toUpper_P c
  unfold Fpdf.orient turned
  by_cases h : portrait (docPortrait f) o = true
  · rw [if_pos (key.mpr h), if_pos h]
  · rw [if_neg (fun x => h (key.mp x)), if_neg h]

theorem reach_gsized {E : Ext} {f g : Fpdf} (h : Reach E inOrder f g) : GSized f g :=
  Reach.rel (G := Props.inOrder) GSized (fun f => ⟨⟨⟨Open.refl f, Grow.refl f⟩, id⟩, Sized.refl⟩)
    (fun _ _ _ a b => a.trans b)
    (fun f op cb hop hcb => exec_gsized hcb f op hop.1.1 hop.1.2.1 hop.2) h

theorem new_cons {o u s : Bytes} {sz : Size} (h : (Fpdf.new o u s sz).err = none) : Cons (Fpdf.new o u s sz) := by
  obtain ⟨h1, h2⟩ := new_geo o u s sz h
  obtain ⟨_, _, n3, n4, n5, _⟩ := new_open o u s sz
  refine ⟨h1, ?_, fun n _ => by rw [h2]; rfl, fun hp => absurd ?_ hp⟩
  · rw [n5]
    rw [n4]
    rfl
  · exact n4

/-- A call-back that begins no pages. -/
structure NoPages (cb : Cb) : Prop where
  header : ∀ h, cb.header = some h → ∀ s, (h s).pages.length = s.pages.length
  footer : ∀ h, cb.footer = some h → ∀ b s, (h b s).pages.length = s.pages.length

theorem frm_len {f g : Fpdf} (h : Frm f g) : g.pages.length = f.pages.length := by
  obtain ⟨b, hb⟩ := h.app
  rw [hb.1]
  split
  · exact modifyAt_length ..
  · rfl

theorem runHeader_len {cb : Cb} (h : NoPages cb) (f : Fpdf) : (f.runHeader cb).pages.length = f.pages.length := by
  unfold Fpdf.runHeader
  cases hf : cb.header with
  | none => rfl
  | some fn =>
    dsimp only
    have h1 := h.header fn hf { f with inHeader := true, log := f.log ++ [CbEvent.header f.page] }
    generalize fn { f with inHeader := true, log := f.log ++ [CbEvent.header f.page] } = g at h1 ⊢
    split
    · exact (frm_len (setHomeXY_frm _)).trans h1
    · exact h1

theorem leavePage_len {cb : Cb} (h : NoPages cb) (f : Fpdf) : (f.leavePage cb).pages.length = f.pages.length := by
  have h1 : ∀ f : Fpdf, ((f.runFooter cb false).endpage).pages.length = f.pages.length := by
    intro f
    have e1 : (f.runFooter cb false).pages.length = f.pages.length := by
      unfold Fpdf.runFooter
      dsimp only
      cases hf : cb.footer with
      | none => rfl
      | some fn => exact h.footer fn hf false _
    have e2 : ∀ g : Fpdf, g.endpage.pages.length = g.pages.length := fun g => by
      show g.endLayer.pages.length = _
      exact frm_len (endLayer_frm g)
    rw [e2, e1]
  unfold Fpdf.leavePage
  dsimp only
  have e3 : (if f.page ≠ f.pages.length - 1 then { f with page := f.pages.length - 1 } else f).pages.length = f.pages.length := by split <;> rfl
  generalize (if f.page ≠ f.pages.length - 1 then { f with page := f.pages.length - 1 } else f) = g at e3 ⊢
  have e4 : (if g.state = 0 then { g with state := 1 } else g).pages.length = f.pages.length := by rw [← e3]; split <;> rfl
  generalize (if g.state = 0 then { g with state := 1 } else g) = g2 at e4 ⊢
  split
  · rw [h1]; exact e4
  · exact e4

theorem beginpage_size (f : Fpdf) (o : Bytes) (sz : Size) (he : f.err = none) : (f.beginpage o sz).p.curPageSize = sz := by
  unfold Fpdf.beginpage
  rw [if_neg (by simp [he])]
  dsimp only
  generalize Fpdf.orientLetter _ o = ol
  by_cases hc : ol ≠ f.p.curOrientation ∨ sz ≠ f.p.curPageSize
  · rw [if_pos hc]; dsimp only; split <;> rfl
  · rw [if_neg hc]
    have : sz = f.p.curPageSize := by
      by_contra hx
      exact hc (.inr hx)
    dsimp only
    split <;> exact this.symm

/-- The page begun by `AddPageFormat`: the state between. -/
theorem began {E : Ext} {cb : Cb} (hcb : Cb.Rel (fun s => s.page ≠ 0) GSized cb) (hn : NoPages cb) (f : Fpdf) (o : Bytes) (sz : Size) (hc : Cons f) (hk : f.k ≠ 0)
    (hp : (f.addPageFormat E cb o sz).pages.length = f.pages.length + 1) :
    Sized f (f.addPageFormat E cb o sz) ∧ (f.addPageFormat E cb o sz).page = f.page + 1 ∧
      ((f.addPageFormat E cb o sz).p.w, (f.addPageFormat E cb o sz).p.h) = turned (portrait (docPortrait f) o) sz.wd sz.ht ∧ (f.addPageFormat E cb o sz).p.curPageSize = sz := by
  have K := GSized.onPage (E := E) hcb
  have hall := (K.turnRel.addPageFormat f o sz).2 hc
  have hpg : (f.addPageFormat E cb o sz).page = f.page + 1 := by
    have := hall.cons.last
    have := hc.last
    omega
  refine ⟨hall, hpg, ?_⟩
  by_cases he : f.err = none
  · have hl := K.leavePage f
    have hlc := (hl.2 hc).cons
    have htail := K.turnRel.tail f o sz he
    have hlen : (f.addPageFormat E cb o sz).pages.length = ((f.leavePage cb).beginpage o sz).pages.length :=
      tail_of (E := E) (cb := cb) (R := fun a b => b.pages.length = a.pages.length) (fun _ _ _ a b => b.trans a) (fun _ _ h => frm_len h)
        (fun g _ => runHeader_len hn g) f o sz he (K.turnRel.turn f o sz he).2
    have hll := leavePage_len hn f
    by_cases hle : (f.leavePage cb).err = none
    · have hd := beginpage_dims (f.leavePage cb) o sz hle hlc.geo
      have hb := (K.begin (f.leavePage cb) o sz).2 hlc
      have ht := (htail.2 hb.cons)
      have hpb : ((f.leavePage cb).beginpage o sz).page = (f.addPageFormat E cb o sz).page := by
        have := hb.cons.last
        have := ht.cons.last
        omega
      have hne : (f.addPageFormat E cb o sz).page ≠ 0 := by omega
      have k1 := ht.cons.cur hne
      rw [ht.kept _ (by have := hb.cons.last; omega), ← hpb, hb.cons.cur (by omega), hb.cons.geo.wPt, hb.cons.geo.hPt, ht.cons.geo.wPt, ht.cons.geo.hPt, ht.k] at k1
      have hw : ((f.leavePage cb).beginpage o sz).p.w * ((f.leavePage cb).beginpage o sz).k = (f.addPageFormat E cb o sz).p.w * ((f.leavePage cb).beginpage o sz).k := congrArg Prod.fst k1
      have hh : ((f.leavePage cb).beginpage o sz).p.h * ((f.leavePage cb).beginpage o sz).k = (f.addPageFormat E cb o sz).p.h * ((f.leavePage cb).beginpage o sz).k := congrArg Prod.snd k1
      have hk' : ((f.leavePage cb).beginpage o sz).k ≠ 0 := by rw [hb.k, (hl.2 hc).k]; exact hk
      refine ⟨?_, (ht.size hlen).trans (beginpage_size _ o sz hle)⟩
      rw [← mul_right_cancel₀ hk' hw, ← mul_right_cancel₀ hk' hh]
      have e5 := orient_turned (f.leavePage cb) o sz
      rw [show docPortrait (f.leavePage cb) = docPortrait f by unfold docPortrait; rw [(hl.2 hc).defO], ← hd] at e5
      exact e5
    · exfalso
      rw [beginpage_of_err _ o sz hle] at hlen
      omega
  · exfalso
    rw [addPageFormat_of_err E cb f o sz he] at hp
    omega

theorem display_kp (g : Fpdf) (b pr : Bytes) :
    (({ g.setDisplayMode (B "default") (B "default") with r.blendMode := b, m.producer := pr } : Fpdf).k = g.k) ∧
      (({ g.setDisplayMode (B "default") (B "default") with r.blendMode := b, m.producer := pr } : Fpdf).p = g.p) := by
  have h : (g.setDisplayMode (B "default") (B "default")).k = g.k ∧ (g.setDisplayMode (B "default") (B "default")).p = g.p := by
    unfold Fpdf.setDisplayMode
    dsimp only
    repeat' split
    all_goals exact ⟨rfl, rfl⟩
  exact h

/-- What `New` sets: the unit's scale factor, the page size and the orientation asked for. -/
theorem new_asked {o u s : Bytes} {sz : Size} (h : (Fpdf.new o u s sz).err = none) :
    Fpdf.unitScale (if u = [] then B "mm" else u) = some (Fpdf.new o u s sz).k := by
  revert h
  unfold Fpdf.new
  dsimp only
  split
  · intro h; simp [Fpdf.assignErr] at h
  · next k hk =>
    split
    · intro h; simp [Fpdf.assignErr] at h
    · next s1 hs =>
      split
      · intro h; simp [Fpdf.assignErr] at h
      · next o1 ho =>
        intro _
        rw [(display_kp _ _ _).1, hk]
        rfl

theorem new_k {o u s : Bytes} {sz : Size} (h : (Fpdf.new o u s sz).err = none) : (Fpdf.new o u s sz).k ≠ 0 := by
  have h1 := new_asked h
  intro h0
  rw [h0] at h1
  revert h1
  unfold Fpdf.unitScale
  repeat' split
  all_goals (intro h1; first | cases h1 | (simp only [Option.some.injEq] at h1; norm_num at h1))

theorem reach_cons {E : Ext} {o u s : Bytes} {sz : Size} {f : Fpdf} (hn : (Fpdf.new o u s sz).err = none) (h : Reach E inOrder (Fpdf.new o u s sz) f) :
    Cons f ∧ f.k ≠ 0 ∧ docPortrait f = docPortrait (Fpdf.new o u s sz) ∧ f.k = (Fpdf.new o u s sz).k ∧ f.p.defPageSize = (Fpdf.new o u s sz).p.defPageSize := by
  have h1 := (reach_gsized h).2 (new_cons hn)
  exact ⟨h1.cons, by rw [h1.k]; exact new_k hn, by unfold docPortrait; rw [h1.defO], h1.k, h1.defS⟩

theorem last_gsized {E : Ext} {cb : Cb} {f g last : Fpdf} {file : Bytes} {v : Nat} {A P M T : List Body} {d : Bytes} {items : List (Nat × Body)}
    (hcb : CbReach E inOrder cb) (hp : Printed E cb f g last file v A P M T d items) : GSized f last := by
  have K := GSized.onPage (E := E) (hcb.rel (fun _ _ h => reach_gsized h))
  rw [hp.eq]
  refine K.trans _ (if f.page = 0 then f.addPage E cb else f) _ ?_ (K.trans _ _ _ (K.runFooter true _ hp.page1) (K.endpage _))
  split
  · exact K.turnRel.addPage f
  · exact K.refl f

/-- The default dimension and the box of a page. -/
theorem hasBox (f : Fpdf) (n : Nat) (rest : Bytes) :
    HasBox (fmtF 2) (mediaText f.p.pageSizes n) (sprintf "/MediaBox [0 0 %.2f %.2f]" [.f (defDim f).1, .f (defDim f).2] ++ B "\n" ++ rest) (Proof.sizeOf f n) := by
  unfold HasBox mediaText Proof.sizeOf
  cases h : lookup n f.p.pageSizes with
  | some s => exact .inl rfl
  | none =>
    refine .inr ⟨rfl, rest, ?_⟩
    dsimp only
    have e : sprintf "/MediaBox [0 0 %.2f %.2f]" [.f (defDim f).1, .f (defDim f).2] = B "/MediaBox [0 0 " ++ (fmtF 2 (defDim f).1 ++ (B " " ++ (fmtF 2 (defDim f).2 ++ B "]"))) :=
      sprintfB_of_render _ _ _ rfl
    rw [e]
    unfold boxEntry defDim
    simp only [List.append_assoc]
    rfl

/-- **C16** At any time, in any program that adds its pages in order (without `SetPage`, without writing before the first page, without closing early):
the width and height that `GetPageSize` returns are those of the current page — the size and orientation it was added with —, and the position
that triggers a page break is the bottom margin above the lower edge. -/
theorem C16_page_size (E : Ext) (o u s : Bytes) (sz : Size) (hnew : (Fpdf.new o u s sz).err = none) (f0 f : Fpdf) (cb : Cb) (or : Bytes) (psz : Size)
    (h0 : Reach E inOrder (Fpdf.new o u s sz) f0) (hcb : CbReach E inOrder cb) (hplain : NoPages cb)
    (hadd : (f0.exec E cb (.addPageFormat or psz)).pageCount = f0.pageCount + 1)
    (hf : Reach E inOrder (f0.exec E cb (.addPageFormat or psz)) f) (hcur : f.pageCount = f0.pageCount + 1) :
    f.page = f0.pageCount + 1 ∧
      (f.p.w, f.p.h) = turned (portrait (docPortrait (Fpdf.new o u s sz)) or) psz.wd psz.ht ∧ f.p.pageBreakTrigger = f.p.h - f.p.bMargin := by
  obtain ⟨hc, hk, hd, hkk, _⟩ := reach_cons hnew h0
  have hlen : (f0.addPageFormat E cb or psz).pages.length = f0.pages.length + 1 := by
    have := hc.last
    unfold Fpdf.pageCount at hadd
    show (f0.exec E cb (.addPageFormat or psz)).pages.length = _
    omega
  obtain ⟨b1, b2, b3, _⟩ := began (hcb.rel (fun _ _ h => reach_gsized h)) hplain f0 or psz hc hk hlen
  rw [hd] at b3
  have hs := (reach_gsized hf).2 b1.cons
  have hpc : f.pages.length = f0.pages.length + 1 := by
    have h1 := hs.cons.last
    unfold Fpdf.pageCount at hcur
    have := hc.last
    omega
  have hpg : f.page = (f0.addPageFormat E cb or psz).page := by
    have h1 := hs.cons.last
    have h2 := b1.cons.last
    have : (f0.exec E cb (.addPageFormat or psz)).page = (f0.addPageFormat E cb or psz).page := rfl
    omega
  refine ⟨?_, ?_, hs.cons.geo.trig⟩
  · have := hc.last
    unfold Fpdf.pageCount
    omega
  · have k1 := hs.cons.cur (by rw [hpg]; omega)
    rw [hs.kept _ (by show f.page < (f0.addPageFormat E cb or psz).pages.length; rw [hpg]; have := b1.cons.last; omega), hpg] at k1
    rw [show Proof.sizeOf (f0.exec E cb (.addPageFormat or psz)) (f0.addPageFormat E cb or psz).page = _ from b1.cons.cur (by omega),
      b1.cons.geo.wPt, b1.cons.geo.hPt, hs.cons.geo.wPt, hs.cons.geo.hPt, hs.k] at k1
    have hk' : (f0.addPageFormat E cb or psz).k ≠ 0 := by rw [b1.k]; exact hk
    have e1 : (f0.addPageFormat E cb or psz).p.w = f.p.w := mul_right_cancel₀ hk' (congrArg Prod.fst k1)
    have e2 : (f0.addPageFormat E cb or psz).p.h = f.p.h := mul_right_cancel₀ hk' (congrArg Prod.snd k1)
    rw [← b3, e1, e2]

/-- **C16** In the file, every page has the size and orientation it was added with: if `AddPageFormat(or, psz)` begins the `n`-th page of a document
whose pages are added in order, then whatever the program does afterwards, the `n`-th page listed in the page tree of the file has the `/MediaBox`
(its own, or the one inherited from the page tree) of `psz`, turned if not portrait, in points. -/
theorem C16_media_box (E : Ext) (inflate : Bytes → Bytes) (hinf : ∀ b, inflate (E.deflate b) = b) (o u s : Bytes) (sz : Size)
    (hnew : (Fpdf.new o u s sz).err = none) (f0 f : Fpdf) (cb cb' : Cb) (or : Bytes) (psz : Size) (wf : Bool)
    (h0 : Reach E inOrder (Fpdf.new o u s sz) f0) (hcb : CbReach E inOrder cb) (hplain : NoPages cb)
    (hadd : (f0.exec E cb (.addPageFormat or psz)).pageCount = f0.pageCount + 1)
    (hf : Reach E inOrder (f0.exec E cb (.addPageFormat or psz)) f)
    (hcb' : CbReach E inOrder cb') (hok : errOf E cb' f wf = none) (hsize : (fileOf E cb' f wf).length < 10 ^ 10) :
    ∃ version items root info kids rest size annots content, IsPdf (fileOf E cb' f wf) [] version items root info ∧ PageTree items kids rest ∧
      f0.pageCount < kids.length ∧ PageObject items (readIn E inflate (docOf E cb' f wf)) (kids.getD f0.pageCount 0) size annots content ∧
      HasBox (fmtF 2) size rest (points (Fpdf.new o u s sz).k (turned (portrait (docPortrait (Fpdf.new o u s sz)) or) psz.wd psz.ht)) := by
  obtain ⟨hc, hk, hd, hkk, _⟩ := reach_cons hnew h0
  have hl0 := hc.last
  have hlen : (f0.addPageFormat E cb or psz).pages.length = f0.pages.length + 1 := by
    unfold Fpdf.pageCount at hadd
    show (f0.exec E cb (.addPageFormat or psz)).pages.length = _
    omega
  obtain ⟨b1, b2, b3, _⟩ := began (hcb.rel (fun _ _ h => reach_gsized h)) hplain f0 or psz hc hk hlen
  rw [hd] at b3
  have hf' : Reach E inOrder (Fpdf.new o u s sz) f := (Reach.step (.addPageFormat or psz) cb h0 ⟨⟨by simp, by simp, by simp, fun _ => rfl⟩, by simp⟩ hcb.header hcb.footer hcb.accept).trans hf
  obtain ⟨last, v, A, P, M, T, d, items, hp, hb⟩ := printed_pf (reach_inOrder hf') (CbReach.inOrder hcb') hok
  have hgs := (reach_gsized hf).trans (last_gsized hcb' hp)
  have hs := hgs.2 b1.cons
  have hpdf := hp.written.pdf hsize
  rw [hb] at hpdf
  have hN : f0.pageCount = f0.page := by unfold Fpdf.pageCount; omega
  have hlt : f0.page < last.page := by
    have h1 := hs.cons.last
    have h2 := hgs.1.go.grow.len
    have h3 : (f0.exec E cb (.addPageFormat or psz)).pages.length = f0.pages.length + 1 := hlen
    omega
  obtain ⟨annots, hobj, _⟩ := hp.written.pageObject hp.state hp.fin hinf f0.page hlt
  refine ⟨v, items, _, _, _, _, mediaText (docOf E cb' f wf).p.pageSizes (f0.page + 1), annots, (docOf E cb' f wf).pages.getD (f0.page + 1) [], hpdf, hp.written.pageTree, by rw [List.length_map, List.length_range, hN]; exact hlt, ?_, ?_⟩
  · rw [hN, show ((List.range last.page).map fun i => 3 + A.length + 2 * i).getD f0.page 0 = 3 + A.length + 2 * f0.page by
      rw [List.getD_eq_getElem?_getD, List.getElem?_map, List.getElem?_range hlt]; rfl]
    exact hobj
  · have hbox := hasBox last (f0.page + 1) (B ">>\n")
    have e1 : Proof.sizeOf last (f0.page + 1) = points (Fpdf.new o u s sz).k (turned (portrait (docPortrait (Fpdf.new o u s sz)) or) psz.wd psz.ht) := by
      rw [hs.kept _ (by show _ < (f0.addPageFormat E cb or psz).pages.length; omega)]
      show Proof.sizeOf (f0.addPageFormat E cb or psz) (f0.page + 1) = _
      rw [← b2, b1.cons.cur (by omega), b1.cons.geo.wPt, b1.cons.geo.hPt, ← b3, b1.k, hkk]
      rfl
    rw [e1] at hbox
    rw [show (docOf E cb' f wf).p.pageSizes = last.p.pageSizes from congrArg (fun p : PageSt => p.pageSizes) hp.fin.p]
    rw [List.append_assoc] at hbox
    exact hbox

/-- A document with a portrait page and a landscape page of 300 x 200 points. -/
def mixed : Fpdf := ((Fpdf.new [] (B "pt") [] ⟨100, 150⟩).exec {} {} .addPage).exec {} {} (.addPageFormat (B "Landscape") ⟨200, 300⟩)

/-- Non-vacuity of the theorems above. -/
example : (Fpdf.new [] (B "pt") [] ⟨100, 150⟩).err = none ∧ CbReach {} inOrder {} ∧ NoPages {} ∧
    Reach {} inOrder (Fpdf.new [] (B "pt") [] ⟨100, 150⟩) ((Fpdf.new [] (B "pt") [] ⟨100, 150⟩).exec {} {} .addPage) ∧
    mixed.pageCount = ((Fpdf.new [] (B "pt") [] ⟨100, 150⟩).exec {} {} .addPage).pageCount + 1 ∧ errOf {} {} mixed false = none ∧
    (fileOf {} {} mixed false).length < 10 ^ 10 ∧ (mixed.p.w, mixed.p.h) = (300, 200) := by
  refine ⟨by decide +kernel, ⟨by simp, by simp, fun s => Reach.refl s⟩, ⟨by simp, by simp⟩, ?_, by decide +kernel, by decide +kernel, by decide +kernel, by decide +kernel⟩
  exact Reach.step .addPage {} (Reach.refl _) ⟨⟨by simp, by simp, by simp, fun _ => rfl⟩, by simp⟩ (by simp) (by simp) (fun s => Reach.refl s)

/-- After `SetPage` the dimensions are still those of the page left: with pages of different sizes, `GetPageSize` and the page-break position
are not those of the page drawn on. -/
theorem C16_setPage_false : ∃ f : Fpdf, Reach {} pagesFirst (Fpdf.new [] (B "pt") [] ⟨100, 150⟩) f ∧ f.err = none ∧ f.page = 1 ∧
    (f.p.w, f.p.h) = (300, 200) ∧ f.pageSize 1 = ⟨100, 150⟩ := by
  refine ⟨mixed.exec {} {} (.setPage 1), ?_, by decide +kernel, by decide +kernel, by decide +kernel, by decide +kernel⟩
  have go : ∀ (f : Fpdf) (op : Op), Reach {} pagesFirst (Fpdf.new [] (B "pt") [] ⟨100, 150⟩) f → pagesFirst.op f {} op →
      Reach {} pagesFirst (Fpdf.new [] (B "pt") [] ⟨100, 150⟩) (f.exec {} {} op) :=
    fun f op h1 h2 => Reach.step op {} h1 h2 (by simp) (by simp) (fun s => Reach.refl s)
  refine go _ _ (go _ _ (go _ _ (Reach.refl _) ?_) ?_) ?_
  · exact ⟨by simp, by simp, by simp, fun _ => rfl⟩
  · exact ⟨by simp, by simp, by simp, fun _ => rfl⟩
  · exact ⟨by simp, by simp, by simp, fun h => absurd h (by decide +kernel)⟩

/-- `PageSize(n)` of a page with the document's own format ignores the orientation: in a landscape document it returns the portrait dimensions,
while `GetPageSize` returns those of the page. -/
theorem C16_PageSize_false : ∃ f : Fpdf, Reach {} inOrder (Fpdf.new (B "L") (B "pt") [] ⟨100, 150⟩) f ∧ f.err = none ∧ f.page = 1 ∧
    (f.p.w, f.p.h) = (150, 100) ∧ f.pageSize 1 = ⟨100, 150⟩ := by
  refine ⟨(Fpdf.new (B "L") (B "pt") [] ⟨100, 150⟩).exec {} {} .addPage, ?_, by decide +kernel, by decide +kernel, by decide +kernel, by decide +kernel⟩
  exact Reach.step .addPage {} (Reach.refl _) ⟨⟨by simp, by simp, by simp, fun _ => rfl⟩, by simp⟩ (by simp) (by simp) (fun s => Reach.refl s)

end Verif.Props
