import Verif.Proof.Alias
/-
C07, C08, C10, C13: the file that `Output` writes.
-/
namespace Verif.Props
open Verif Verif.Model Verif.Spec Verif.Proof

/-- The file that `Output` writes. -/
abbrev fileOf (E : Ext) (cb : Cb) (f : Fpdf) (wf : Bool) : Bytes := (f.output E cb wf).1
/-- The document after `Output`. -/
abbrev docOf (E : Ext) (cb : Cb) (f : Fpdf) (wf : Bool) : Fpdf := (f.output E cb wf).2.1
/-- The error `Output` returns. -/
abbrev errOf (E : Ext) (cb : Cb) (f : Fpdf) (wf : Bool) : Option String := (f.output E cb wf).2.2

/-- The document as `Output` finds it: with a first page if there was none, and with the last footer. -/
def drawn (E : Ext) (cb : Cb) (f : Fpdf) : Fpdf := ((if f.page = 0 then f.addPage E cb else f).runFooter cb true).endpage

theorem printed_any {E : Ext} {o u s : Bytes} {sz : Size} {f : Fpdf} {cb : Cb} {wf : Bool} (hf : Reach E noClose (Fpdf.new o u s sz) f) (hcb : CbReach E noClose cb)
    (hok : errOf E cb f wf = none) : ∃ last v A P M T d items, Printed E cb f (docOf E cb f wf) last (fileOf E cb f wf) v A P M T d items := by
  have h1 := (new_fresh o u s sz).next (reach_open hf)
  exact output_printed (CloseOk.of_open (hcb.rel (fun _ _ h => reach_open h)) f h1) h1 hok

theorem pf_fresh {E : Ext} {o u s : Bytes} {sz : Size} {f : Fpdf} (hf : Reach E pagesFirst (Fpdf.new o u s sz) f) : Fresh f :=
  (new_fresh o u s sz).next (reach_pf hf).1.1

theorem printed_pf {E : Ext} {o u s : Bytes} {sz : Size} {f : Fpdf} {cb : Cb} {wf : Bool} (hf : Reach E pagesFirst (Fpdf.new o u s sz) f) (hcb : CbReach E pagesFirst cb)
    (hok : errOf E cb f wf = none) : ∃ last v A P M T d items, Printed E cb f (docOf E cb f wf) last (fileOf E cb f wf) v A P M T d items ∧ last.buffer = [] := by
  have h1 := pf_fresh hf
  have hc := hcb.rel (fun _ _ h => reach_pf h)
  obtain ⟨last, v, A, P, M, T, d, items, hp⟩ := output_printed (CloseOk.of_pf hc f h1) h1 hok
  refine ⟨last, v, A, P, M, T, d, items, hp, ?_⟩
  obtain ⟨_, _, n3, n4, n5, _, n7, _⟩ := new_open o u s sz
  have hce : (f.close E cb).err = none := (output_ok h1.state hok).1
  have hfe : f.err = none := by
    obtain ⟨h, _⟩ := close_enddoc' (E := E) f (CloseOk.of_pf hc f h1).add (CloseOk.of_pf (E := E) hc f h1).foot h1.state h1.page hce
    exact h
  obtain ⟨hr, hb⟩ := (reach_pf hf).2 hfe (.inr ⟨n3, by rw [n5]; rfl, n4⟩)
  rw [hp.eq]
  refine (close_buffer hc f hr _ rfl hp.err1 hp.page1 ?_).trans (hb.trans n7)
  rw [← hp.eq]; exact hp.err

/-- **C07, C08** Every document built from `New` by any sequence of API calls (with any call-backs that use the API) that does not draw before the first page,
clear errors or close the document, and that `Output` then writes without error, is a well-formed PDF file: cross-reference table, `startxref`,
object numbers, stream lengths and trailer are all right. (Offsets are written with ten digits, hence the bound on the size.) -/
theorem C07_wellformed (E : Ext) (o u s : Bytes) (sz : Size) (f : Fpdf) (cb : Cb) (wf : Bool) (hf : Reach E pagesFirst (Fpdf.new o u s sz) f)
    (hcb : CbReach E pagesFirst cb) (hok : errOf E cb f wf = none) (hsize : (fileOf E cb f wf).length < 10 ^ 10) :
    ∃ version items root info, IsPdf (fileOf E cb f wf) [] version items root info := by
  obtain ⟨last, v, A, P, M, T, d, items, hp, hb⟩ := printed_pf hf hcb hok
  have := hp.written.pdf hsize
  rw [hb] at this
  exact ⟨v, items, _, _, this⟩

/-- **C07, C08** For programs that only do not close the document, all the same holds, except that something else may stand before the header. -/
theorem C07_any_program (E : Ext) (o u s : Bytes) (sz : Size) (f : Fpdf) (cb : Cb) (wf : Bool) (hf : Reach E noClose (Fpdf.new o u s sz) f)
    (hcb : CbReach E noClose cb) (hok : errOf E cb f wf = none) (hsize : (fileOf E cb f wf).length < 10 ^ 10) :
    ∃ junk version items root info, IsPdf (fileOf E cb f wf) junk version items root info := by
  obtain ⟨last, v, A, P, M, T, d, items, hp⟩ := printed_any hf hcb hok
  exact ⟨_, v, items, _, _, hp.written.pdf hsize⟩

/-- **C08** Every stream in the file declares its exact length. -/
theorem C08_stream_lengths (E : Ext) (o u s : Bytes) (sz : Size) (f : Fpdf) (cb : Cb) (wf : Bool) (hf : Reach E noClose (Fpdf.new o u s sz) f)
    (hcb : CbReach E noClose cb) (hok : errOf E cb f wf = none) (hsize : (fileOf E cb f wf).length < 10 ^ 10) :
    ∃ start header items, readStart (fileOf E cb f wf) = some start ∧ (fileOf E cb f wf).take start = header ++ objsText items ∧
      ∀ n dict data, (n, Body.stream dict data) ∈ items → Declares dict data.length := by
  obtain ⟨junk, v, items, root, info, h⟩ := C07_any_program E o u s sz f cb wf hf hcb hok hsize
  obtain ⟨start, offs, tr, h1, h2, _⟩ := h.parts
  exact ⟨start, _, items, h1, h2, fun n dict data hm => h.lengths _ hm⟩

/-- A line drawn before the first page stands before the header of the file: a reader does not find the header at the beginning. -/
theorem C07_header_first_false : ∃ f : Fpdf, Reach {} noClose (Fpdf.new [] [] [] {}) f ∧ errOf {} {} f false = none ∧
    ¬ (B "%PDF-" <+: fileOf {} {} f false) := by
  refine ⟨(Fpdf.new [] [] [] {}).exec {} {} (.line 1 1 2 2), ?_, ?_, ?_⟩
  · exact Reach.step _ _ (Reach.refl _) ⟨by simp, by simp⟩ (by simp) (by simp) (fun s => Reach.refl s)
  · decide +kernel
  · decide +kernel

/-- **C10** If `Output` returns no error, what it wrote is a complete PDF file (for programs as in `C07_wellformed`), and the document had no error. -/
theorem C10_no_error_complete (E : Ext) (o u s : Bytes) (sz : Size) (f : Fpdf) (cb : Cb) (wf : Bool) (hf : Reach E pagesFirst (Fpdf.new o u s sz) f)
    (hcb : CbReach E pagesFirst cb) (hok : errOf E cb f wf = none) (hsize : (fileOf E cb f wf).length < 10 ^ 10) :
    f.err = none ∧ (docOf E cb f wf).err = none ∧ wf = false ∧ ∃ version items root info, IsPdf (fileOf E cb f wf) [] version items root info := by
  have h1 := pf_fresh hf
  obtain ⟨a1, a2, a3, a4⟩ := output_ok h1.state hok
  refine ⟨?_, ?_, a4, C07_wellformed E o u s sz f cb wf hf hcb hok hsize⟩
  · by_cases he : f.err = none
    · exact he
    · have := output_of_err E cb f wf he
      unfold errOf at hok
      rw [this] at hok
      exact hok
  · unfold docOf; rw [a3]; exact a1

/-- A document with a font whose file cannot be found. -/
def noFontFile : Fpdf := ((Fpdf.new [] [] [] {}).exec {} {} (.addFont (B "x") [] (some { file := B "x.z" }) {})).exec {} {} .addPage

/-- `Output` can return an error although it has written to the writer: here a font file is missing, and the beginning of a file is written. -/
theorem C10_output_with_error_false : Reach {} pagesFirst (Fpdf.new [] [] [] {}) noFontFile ∧ noFontFile.err = none ∧ errOf {} {} noFontFile false ≠ none ∧
    B "%PDF-1.3" <+: fileOf {} {} noFontFile false := by
  refine ⟨?_, ?_, ?_, ?_⟩
  · refine Reach.step _ _ (Reach.step _ _ (Reach.refl _) ⟨by simp, by simp, by simp, fun _ => rfl⟩ (by simp) (by simp) (fun s => Reach.refl s))
      ⟨by simp, by simp, by simp, fun _ => rfl⟩ (by simp) (by simp) (fun s => Reach.refl s)
  · decide +kernel
  · decide +kernel
  · decide +kernel

/-! ### Pages -/

/-- Programs as in `C07_wellformed` that do not call `SetPage`. -/
def inOrder : Guard := { op := fun f cb op => pagesFirst.op f cb op ∧ ∀ n, op ≠ .setPage n, cb := pagesFirst.cb }

theorem reach_inOrder {E : Ext} {f g : Fpdf} (h : Reach E inOrder f g) : Reach E pagesFirst f g := Reach.mono (G := Props.inOrder) (fun _ _ _ h => h.1) (fun _ h => h) h
theorem CbReach.inOrder {E : Ext} {cb : Cb} (h : CbReach E inOrder cb) : CbReach E pagesFirst cb :=
  ⟨fun a ha s hs => reach_inOrder (h.header a ha s hs), fun a ha b s hs => reach_inOrder (h.footer a ha b s hs), fun s => reach_inOrder (h.accept s)⟩

theorem reach_goLast {E : Ext} {f g : Fpdf} (h : Reach E inOrder f g) : GoLast f g :=
  Reach.rel (G := Props.inOrder) GoLast (fun f => ⟨⟨Open.refl f, Grow.refl f⟩, id⟩)
    (fun _ _ _ a b => ⟨⟨a.go.op.trans b.go.op, a.go.grow.trans b.go.grow⟩, fun x => b.last (a.last x)⟩)
    (fun f op cb hop hcb => exec_goLast hcb f op hop.1.1 hop.1.2.1 hop.2) h

theorem reach_go {E : Ext} {f g : Fpdf} (h : Reach E pagesFirst f g) : Go f g :=
  Reach.rel (G := pagesFirst) Go (fun f => ⟨Open.refl f, Grow.refl f⟩)
    (fun _ _ _ a b => ⟨a.op.trans b.op, a.grow.trans b.grow⟩)
    (fun f op cb hop hcb => exec_go hcb f op hop.1 hop.2.1) h

/-- How the contents of the streams of a document are read: decryption (if it is protected), then decompression. -/
abbrev readIn (E : Ext) (inflate : Bytes → Bytes) (g : Fpdf) : Nat → Bytes → Bytes → Bytes := readStream inflate (decryptOf E g)

/-- The pages of the file, in order, are pages 1, 2, … of the document, up to the current page. -/
theorem pages_of_file {E : Ext} {inflate : Bytes → Bytes} (hinf : ∀ b, inflate (E.deflate b) = b) {cb : Cb} {f g last : Fpdf} {file : Bytes} {v : Nat} {A P M T : List Body} {d : Bytes}
    {items : List (Nat × Body)} (hp : Printed E cb f g last file v A P M T d items) :
    ∃ kids rest, PageTree items kids rest ∧ kids.length = g.page ∧ kids.Nodup ∧
      ∀ i, i < g.page → ∃ size annots, PageObject items (readIn E inflate g) (kids.getD i 0) size annots (g.pages.getD (i + 1) []) := by
  refine ⟨_, _, hp.written.pageTree, by rw [List.length_map, List.length_range, hp.fin.page], ?_, ?_⟩
  · refine List.Pairwise.map _ (fun a b h => ?_) (List.nodup_range (n := last.page))
    intro h2
    omega
  · intro i hi
    rw [hp.fin.page] at hi
    obtain ⟨annots, h, _⟩ := hp.written.pageObject hp.state hp.fin hinf i hi
    refine ⟨mediaText g.p.pageSizes (i + 1), annots, ?_⟩
    rw [show ((List.range last.page).map fun i => 3 + A.length + 2 * i).getD i 0 = 3 + A.length + 2 * i by
      rw [List.getD_eq_getElem?_getD, List.getElem?_map, List.getElem?_range hi]; rfl]
    exact h

/-- **C13** If `SetPage` is not called, the file lists exactly `PageCount` pages, in the order they were added, and the contents of the `n`-th is what the document
holds as page `n`. -/
theorem C13_every_page (E : Ext) (inflate : Bytes → Bytes) (hinf : ∀ b, inflate (E.deflate b) = b) (o u s : Bytes) (sz : Size) (f : Fpdf) (cb : Cb) (wf : Bool)
    (hf : Reach E inOrder (Fpdf.new o u s sz) f) (hcb : CbReach E inOrder cb) (hok : errOf E cb f wf = none) (hsize : (fileOf E cb f wf).length < 10 ^ 10) :
    ∃ version items root info kids rest, IsPdf (fileOf E cb f wf) [] version items root info ∧ PageTree items kids rest ∧
      kids.length = (docOf E cb f wf).pageCount ∧ kids.Nodup ∧
      ∀ i, i < kids.length → ∃ size annots, PageObject items (readIn E inflate (docOf E cb f wf)) (kids.getD i 0) size annots ((docOf E cb f wf).pages.getD (i + 1) []) := by
  obtain ⟨last, v, A, P, M, T, d, items, hp, hb⟩ := printed_pf (reach_inOrder hf) (CbReach.inOrder hcb) hok
  obtain ⟨kids, rest, k1, k2, k3, k4⟩ := pages_of_file hinf hp
  have hpdf := hp.written.pdf hsize
  rw [hb] at hpdf
  refine ⟨v, items, _, _, kids, rest, hpdf, k1, ?_, k3, fun i hi => k4 i (by omega)⟩
  have hc : Cb.Rel (fun s => s.page ≠ 0) GoLast cb := hcb.rel (fun _ _ h => reach_goLast h)
  have K := GoLast.onPage (E := E) hc
  have h1 := reach_goLast hf
  have h2 : GoLast f last := by
    rw [hp.eq]
    refine K.trans _ (if f.page = 0 then f.addPage E cb else f) _ ?_ (K.trans _ _ _ (K.runFooter true _ hp.page1) (K.endpage _))
    split
    · exact K.turnRel.addPage f
    · exact K.refl f
  obtain ⟨_, _, _, n4, n5, _⟩ := new_open o u s sz
  have h3 : last.page + 1 = last.pages.length := h2.last (h1.last (by rw [n4, n5]; rfl))
  rw [k2, hp.fin.page]
  unfold Fpdf.pageCount
  rw [hp.fin.pages, (sAli_sub E last hp.state hp.written.att.fix).1]
  unfold onPages
  rw [List.length_mapIdx]
  omega

/-- **C13** Nothing drawn on a page is lost or goes elsewhere: what page `n` held at some point of the program (and `SetPage` may be used) is what its contents begin with
in the document written, if no aliases are used. -/
theorem C13_contents_kept (E : Ext) (o u s : Bytes) (sz : Size) (f0 f : Fpdf) (cb : Cb) (wf : Bool) (h0 : Reach E pagesFirst (Fpdf.new o u s sz) f0)
    (hf : Reach E pagesFirst f0 f) (hcb : CbReach E pagesFirst cb) (hok : errOf E cb f wf = none) (hal : (docOf E cb f wf).m.aliasMap = [])
    (n : Nat) (h1 : 1 ≤ n) (h2 : n ≤ (docOf E cb f wf).page) : f0.pages.getD n [] <+: (docOf E cb f wf).pages.getD n [] := by
  obtain ⟨last, v, A, P, M, T, d, items, hp, _⟩ := printed_pf (h0.trans hf) hcb hok
  rw [hp.subst n h1 h2, hal, subst_nil]
  have hc : Cb.Rel (fun s => s.page ≠ 0) Go cb := hcb.rel (fun _ _ h => reach_go h)
  have K := Go.onPage (E := E) hc
  have g1 : Go f last := by
    rw [hp.eq]
    refine K.trans _ (if f.page = 0 then f.addPage E cb else f) _ ?_ (K.trans _ _ _ (K.runFooter true _ hp.page1) (K.endpage _))
    split
    · exact K.turnRel.addPage f
    · exact K.refl f
  have hg := (K.trans _ _ _ (reach_go hf) g1).grow n
  rw [List.getD_eq_getElem?_getD, List.getD_eq_getElem?_getD]
  cases hb : f0.pages[n]? with
  | none => exact List.nil_prefix
  | some b =>
    obtain ⟨c, hcc⟩ := hg b hb
    rw [hcc]
    exact List.prefix_append b c

/-- **C13** A call that does not change pages writes on the current page only, and appends there. -/
theorem C13_draws_on_current_page (E : Ext) (cb : Cb) (f : Fpdf) (op : Op) (hop : staysOnPage op = true) (hs : f.state = 2) :
    ∃ b, ∀ n, (f.exec E cb op).pages[n]? = if n = f.page then (f.pages[n]?).map (· ++ b) else f.pages[n]? := by
  obtain ⟨b, hb⟩ := (exec_frm E cb f op hop).app
  refine ⟨b, fun n => ?_⟩
  rw [hb.1, if_pos hs, modifyAt_getElem?]

/-- With `SetPage` the last pages can get lost: two pages are added, `SetPage(1)` is called, and the file lists one page only. -/
def backToFirst : Fpdf := (((Fpdf.new [] [] [] {}).exec {} {} .addPage).exec {} {} .addPage).exec {} {} (.setPage 1)

theorem C13_setPage_false : Reach {} pagesFirst (Fpdf.new [] [] [] {}) backToFirst ∧ errOf {} {} backToFirst false = none ∧ backToFirst.pageCount = 2 ∧
    (docOf {} {} backToFirst false).pageCount = 2 ∧ ∃ version items root info rest k, IsPdf (fileOf {} {} backToFirst false) [] version items root info ∧ PageTree items [k] rest := by
  have hr : Reach {} pagesFirst (Fpdf.new [] [] [] {}) backToFirst := by
    refine Reach.step _ _ (Reach.step _ _ (Reach.step _ _ (Reach.refl _) ⟨by simp, by simp, by simp, fun _ => rfl⟩ (by simp) (by simp) (fun s => Reach.refl s))
      ⟨by simp, by simp, by simp, fun _ => rfl⟩ (by simp) (by simp) (fun s => Reach.refl s)) ⟨by simp, by simp, by simp, fun _ => rfl⟩ (by simp) (by simp) (fun s => Reach.refl s)
  have hok : errOf {} {} backToFirst false = none := by decide +kernel
  refine ⟨hr, hok, by decide +kernel, by decide +kernel, ?_⟩
  obtain ⟨last, v, A, P, M, T, d, items, hp, hb⟩ := printed_pf hr ⟨by simp, by simp, fun s => Reach.refl s⟩ hok
  have hpdf := hp.written.pdf (by decide +kernel)
  rw [hb] at hpdf
  have ht := hp.written.pageTree
  have h1 : last.page = 1 := by rw [← hp.fin.page]; decide +kernel
  rw [h1] at ht
  exact ⟨v, items, _, _, _, _, hpdf, ht⟩

/-- A document that meets the hypotheses: two pages, a line on each, drawn with a header. -/
def twoPages : Fpdf := ((((Fpdf.new [] [] [] {}).exec {} {} .addPage).exec {} {} (.line 1 1 2 2)).exec {} {} .addPage).exec {} {} (.line 3 3 4 4)

theorem twoPages_reach : Reach {} inOrder (Fpdf.new [] [] [] {}) twoPages := by
  have go : ∀ (f : Fpdf) (op : Op), Reach {} inOrder (Fpdf.new [] [] [] {}) f → inOrder.op f {} op → Reach {} inOrder (Fpdf.new [] [] [] {}) (f.exec {} {} op) :=
    fun f op h1 h2 => Reach.step op {} h1 h2 (by simp) (by simp) (fun s => Reach.refl s)
  refine go _ _ (go _ _ (go _ _ (go _ _ (Reach.refl _) ?_) ?_) ?_) ?_
  · exact ⟨⟨by simp, by simp, by simp, fun _ => rfl⟩, by simp⟩
  · exact ⟨⟨by simp, by simp, by simp, fun h => absurd h (by decide +kernel)⟩, by simp⟩
  · exact ⟨⟨by simp, by simp, by simp, fun _ => rfl⟩, by simp⟩
  · exact ⟨⟨by simp, by simp, by simp, fun h => absurd h (by decide +kernel)⟩, by simp⟩

example : ∃ f, Reach {} inOrder (Fpdf.new [] [] [] {}) f ∧ CbReach {} inOrder {} ∧ errOf {} {} f false = none ∧ (fileOf {} {} f false).length < 10 ^ 10 ∧
    (docOf {} {} f false).pageCount = 2 ∧ (docOf {} {} f false).m.aliasMap = [] :=
  ⟨twoPages, twoPages_reach, ⟨by simp, by simp, fun s => Reach.refl s⟩, by decide +kernel, by decide +kernel, by decide +kernel, by decide +kernel⟩

end Verif.Props
