import Verif.Props.Templates
import Verif.Props.Drawing
import Verif.Props.Geometry
import Verif.Props.Gradient
/-
C69: where templates are shown on the page.
-/
namespace Verif.Props
open Verif Verif.Model Verif.Spec Verif.Proof

/-- The instructions that show the template with the given name through the matrix `m`, which changes neither the colours nor anything else of the page. -/
def shows (m : Mat) (name : Bytes) : List (List Want × String) :=
  [([], "q"), ([.num 4 m.a, .num 0 m.b, .num 0 m.c, .num 4 m.d, .num 4 m.e, .num 4 m.f], "cm"), ([.name name], "Do"), ([], "Q")]

/-- The matrix of a form: the identity if there is no /Matrix entry. -/
def formMat (k : Rat) (t : Tmpl) : Mat := ⟨1, 0, 0, 1, -2 * t.corner.1 * k, 2 * t.corner.2 * k⟩

/-- Object `n` of the file is the form of template `t`: its box has the lower left corner `c` and the size of the template (in units of `k` points), and its matrix is the identity if it was
created with the corner (0, 0), and `formMat` otherwise. -/
structure FormBox (items : List (Nat × Body)) (read : Nat → Bytes → Bytes → Bytes) (n : Nat) (k : Rat) (t : Tmpl) : Prop where
  box : ∃ filter rect matrix rest data, (n, Body.stream (B "<<" ++ filter ++ B "/Type /XObject\n/Subtype /Form\n/Formtype 1\n/BBox [" ++ rect ++ B "]\n" ++ matrix ++ B "/Resources " ++ rest) data) ∈ items ∧
    Numbers 2 rect [t.corner.1 * k, t.corner.2 * k, (t.corner.1 + t.size.wd) * k, (t.corner.2 + t.size.ht) * k] ∧
    (t.corner = (0, 0) → matrix = []) ∧
    (t.corner ≠ (0, 0) → ∃ off, matrix = B "/Matrix [1 0 0 1 " ++ off ++ B "]\n" ∧ Numbers 5 off [(formMat k t).e, (formMat k t).f]) ∧
    read n (B "<<" ++ filter ++ B "/Type /XObject\n/Subtype /Form\n/Formtype 1\n/BBox [" ++ rect ++ B "]\n" ++ matrix ++ B "/Resources " ++ rest) data = t.bytes

theorem tplcm_frag (a d e g : Rat) : Frag (sprintf "q %.4f 0 0 %.4f %.4f %.4f cm" [.f a, .f d, .f e, .f g])
    (written [([], "q"), ([.num 4 a, .num 0 0, .num 0 0, .num 4 d, .num 4 e, .num 4 g], "cm")]) := by
  have h0 : fmtF 0 0 = B "0" := by decide +kernel
  simp only [written, List.map_cons, List.map_nil, Want.tok, h0]
  exact frag_sprintf rfl rfl

theorem wrote_template (E : Ext) (f : Fpdf) (hs : f.state = 2) (hp : f.page ≠ 0) (t : Tmpl) (c : Rat × Rat) (sz : Size) :
    Wrote f (f.useTemplate E (some t) c sz) (shows ⟨sz.wd / t.size.wd, 0, 0, sz.ht / t.size.ht, c.1 * f.k, (f.p.curPageSize.ht - c.2 - sz.ht) * f.k⟩ (B "TPL" ++ t.id E)) := by
  unfold Fpdf.useTemplate
  dsimp only
  rw [if_neg hp]
  generalize List.foldl _ f.r.images t.images = imgs
  generalize List.foldl _ (Model.insert (t.id E) t f.r.templates) t.deps = tpls
  have h0 : Wrote f { f with r.templates := tpls, r.images := imgs } [] := Wrote.upd rfl rfl rfl rfl rfl
  have h1 : Wrote { f with r.templates := tpls, r.images := imgs } _ _ :=
    Wrote.put (f := { f with r.templates := tpls, r.images := imgs }) hs (tplcm_frag (sz.wd / t.size.wd) (sz.ht / t.size.ht) (c.1 * f.k) ((f.p.curPageSize.ht - c.2 - sz.ht) * f.k))
  exact h0.trans (h1.trans (Wrote.put (ws := [([.name (B "TPL" ++ t.id E)], "Do"), ([], "Q")]) (h1.state.trans hs) (tpl_frag _ (hexEnc_regular _))))

/-- The page begun by `AddPageFormat` in portrait orientation has the height asked for, and so it stays until the next page is begun. -/
theorem upright (E : Ext) (o u s : Bytes) (sz : Size) (hnew : (Fpdf.new o u s sz).err = none) (f0 f : Fpdf) (cb : Cb) (or : Bytes) (psz : Size)
    (h0 : Reach E inOrder (Fpdf.new o u s sz) f0) (hcb : CbReach E inOrder cb) (hplain : NoPages cb)
    (hadd : (f0.exec E cb (.addPageFormat or psz)).pageCount = f0.pageCount + 1)
    (hf : Reach E inOrder (f0.exec E cb (.addPageFormat or psz)) f) (hcur : f.pageCount = f0.pageCount + 1)
    (hor : portrait (docPortrait (Fpdf.new o u s sz)) or = true) : f.page ≠ 0 ∧ f.p.curPageSize.ht = f.p.h := by
  obtain ⟨c1, c2, _⟩ := C16_page_size E o u s sz hnew f0 f cb or psz h0 hcb hplain hadd hf hcur
  obtain ⟨hc, hk, hd, hkk, _⟩ := reach_cons hnew h0
  have hlen : (f0.addPageFormat E cb or psz).pages.length = f0.pages.length + 1 := by
    have := hc.last
    unfold Fpdf.pageCount at hadd
    show (f0.exec E cb (.addPageFormat or psz)).pages.length = _
    omega
  obtain ⟨b1, b2, b3, b4⟩ := began (hcb.rel (fun _ _ h => reach_gsized h)) hplain f0 or psz hc hk hlen
  have hs := (reach_gsized hf).2 b1.cons
  have hl : f.pages.length = (f0.addPageFormat E cb or psz).pages.length := by
    have h1 := hs.cons.last
    have := hc.last
    unfold Fpdf.pageCount at hcur
    omega
  have e := (hs.size hl).trans b4
  rw [hor] at c2
  exact ⟨by omega, by rw [e]; exact (congrArg Prod.snd c2).symm⟩

/-- **C69** `UseTemplateScaled` (`UseTemplate`) on a portrait page. The page is begun by `AddPageFormat` at any point of a program that adds its pages in order, and the template is used at any later time while
it is the current page. `T` is the page on which the template was drawn: as high as the template, with the same unit. What is written shows the template through a matrix, and a point of the template –
moved by the matrix of its form, see `C69_file` – is shown at the corner asked for plus its coordinates, scaled to the size asked for; the offset of a template created with a corner other
than (0, 0) is subtracted twice. -/
theorem C69_place (E : Ext) (o u s : Bytes) (sz : Size) (hnew : (Fpdf.new o u s sz).err = none) (f0 f : Fpdf) (cb cb' : Cb) (or : Bytes) (psz : Size)
    (h0 : Reach E inOrder (Fpdf.new o u s sz) f0) (hcb : CbReach E inOrder cb) (hplain : NoPages cb)
    (hadd : (f0.exec E cb (.addPageFormat or psz)).pageCount = f0.pageCount + 1)
    (hf : Reach E inOrder (f0.exec E cb (.addPageFormat or psz)) f) (hcur : f.pageCount = f0.pageCount + 1)
    (hor : portrait (docPortrait (Fpdf.new o u s sz)) or = true) (hs : f.state = 2)
    (t : Tmpl) (T : Fpdf) (hT : T.getConversionRatio = f.getConversionRatio) (hTh : T.getPageSize.2 = t.size.ht) (hw : t.size.wd ≠ 0) (hh : t.size.ht ≠ 0) (c : Rat × Rat) (size : Size) :
    ∃ m : Mat, Writes f (f.exec E cb' (.useTemplate (some t) c size)) (shows m (B "TPL" ++ t.id E)) ∧
      ∀ x y, m.act ((formMat f.getConversionRatio t).act (pt T x y)) = pt f (c.1 + (x - 2 * t.corner.1) * (size.wd / t.size.wd)) (c.2 + (y - 2 * t.corner.2) * (size.ht / t.size.ht)) := by
  obtain ⟨hp, hup⟩ := upright E o u s sz hnew f0 f cb or psz h0 hcb hplain hadd hf hcur hor
  refine ⟨_, Wrote.writes (wrote_template E f hs hp t c size), fun x y => ?_⟩
  unfold formMat Mat.act pt px py
  dsimp only
  rw [hT, hTh, hup]
  unfold Fpdf.getPageSize Fpdf.getConversionRatio
  dsimp only
  refine Prod.ext ?_ ?_
  · dsimp only
    field_simp
    ring
  · dsimp only
    field_simp
    ring

/-- **C69** For a template created with the corner (0, 0), whose form has no matrix: its points appear at the corner asked for plus their own coordinates, scaled to the size asked for. -/
theorem C69_scaled (E : Ext) (o u s : Bytes) (sz : Size) (hnew : (Fpdf.new o u s sz).err = none) (f0 f : Fpdf) (cb cb' : Cb) (or : Bytes) (psz : Size)
    (h0 : Reach E inOrder (Fpdf.new o u s sz) f0) (hcb : CbReach E inOrder cb) (hplain : NoPages cb)
    (hadd : (f0.exec E cb (.addPageFormat or psz)).pageCount = f0.pageCount + 1)
    (hf : Reach E inOrder (f0.exec E cb (.addPageFormat or psz)) f) (hcur : f.pageCount = f0.pageCount + 1)
    (hor : portrait (docPortrait (Fpdf.new o u s sz)) or = true) (hs : f.state = 2)
    (t : Tmpl) (T : Fpdf) (hT : T.getConversionRatio = f.getConversionRatio) (hTh : T.getPageSize.2 = t.size.ht) (hw : t.size.wd ≠ 0) (hh : t.size.ht ≠ 0) (ht : t.corner = (0, 0)) (c : Rat × Rat) (size : Size) :
    ∃ m : Mat, Writes f (f.exec E cb' (.useTemplate (some t) c size)) (shows m (B "TPL" ++ t.id E)) ∧
      ∀ x y, m.act (pt T x y) = pt f (c.1 + x * (size.wd / t.size.wd)) (c.2 + y * (size.ht / t.size.ht)) := by
  obtain ⟨m, h1, h2⟩ := C69_place E o u s sz hnew f0 f cb cb' or psz h0 hcb hplain hadd hf hcur hor hs t T hT hTh hw hh c size
  refine ⟨m, h1, fun x y => ?_⟩
  have h3 := h2 x y
  have e : (formMat f.getConversionRatio t).act (pt T x y) = pt T x y := by
    unfold formMat Mat.act
    rw [ht]
    simp
  rw [e, ht] at h3
  simpa using h3

theorem box_line (a b c d : Rat) : sprintf "/BBox [%.2f %.2f %.2f %.2f]" [.f a, .f b, .f c, .f d] = B "/BBox [" ++ spaced ([a, b, c, d].map (fmtF 2)) ++ B "]" := by
  have e : sprintf "/BBox [%.2f %.2f %.2f %.2f]" [.f a, .f b, .f c, .f d] = B "/BBox [" ++ (fmtF 2 a ++ (B " " ++ (fmtF 2 b ++ (B " " ++ (fmtF 2 c ++ (B " " ++ (fmtF 2 d ++ B "]"))))))) :=
    sprintfB_of_render _ _ _ rfl
  rw [e]
  simp [spaced, List.append_assoc]

theorem matrix_line (a b : Rat) : sprintf "/Matrix [1 0 0 1 %.5f %.5f]" [.f a, .f b] = B "/Matrix [1 0 0 1 " ++ spaced ([a, b].map (fmtF 5)) ++ B "]" := by
  have e : sprintf "/Matrix [1 0 0 1 %.5f %.5f]" [.f a, .f b] = B "/Matrix [1 0 0 1 " ++ (fmtF 5 a ++ (B " " ++ (fmtF 5 b ++ B "]"))) :=
    sprintfB_of_render _ _ _ rfl
  rw [e]
  simp [spaced, List.append_assoc]

/-- The dictionary of a form. -/
theorem tplText_box (E : Ext) (r : Fpdf) (t : Tmpl) (tab : List (Bytes × Nat)) (len : Bytes) : ∃ rest, tplText E r t tab ++ len =
    B "<<" ++ (if r.m.compress then B "/Filter /FlateDecode " else []) ++ B "/Type /XObject\n/Subtype /Form\n/Formtype 1\n/BBox [" ++
      spaced ([t.corner.1 * r.k, t.corner.2 * r.k, (t.corner.1 + t.size.wd) * r.k, (t.corner.2 + t.size.ht) * r.k].map (fmtF 2)) ++ B "]\n" ++
      (if t.corner.1 ≠ 0 ∨ t.corner.2 ≠ 0 then B "/Matrix [1 0 0 1 " ++ spaced ([-t.corner.1 * r.k * 2, t.corner.2 * r.k * 2].map (fmtF 5)) ++ B "]\n" else []) ++ B "/Resources " ++ rest := by
  refine ⟨B "\n<</ProcSet [/PDF /Text /ImageB /ImageC /ImageI]\n" ++ sect (B "Font") (tplFonts E r) ++
    (if t.images.length > 0 ∨ t.deps.length > 0 then sect (B "XObject") (tplXObjects E r t tab) else []) ++ B ">>\n" ++ len, ?_⟩
  unfold tplText tplBox
  rw [box_line, matrix_line]
  generalize sect (B "Font") _ = y1
  generalize (if t.images.length > 0 ∨ t.deps.length > 0 then _ else _ : Bytes) = y2
  rw [show B "/Type /XObject\n/Subtype /Form\n/Formtype 1\n/BBox [" = B "/Type /XObject\n/Subtype /Form\n" ++ B "/Formtype 1\n" ++ B "/BBox [" from rfl,
    show B "]\n" = B "]" ++ [10] from rfl, show B "/Resources \n<</ProcSet [/PDF /Text /ImageB /ImageC /ImageI]\n" = B "/Resources " ++ B "\n<</ProcSet [/PDF /Text /ImageB /ImageC /ImageI]\n" from rfl]
  split <;> simp only [List.append_assoc, List.nil_append, List.append_nil]

theorem form_box (E : Ext) (inflate : Bytes → Bytes) (hinf : ∀ b, inflate (E.deflate b) = b) {f g s r : Fpdf} (F : Final E f s) (hg : Final E f g) (hc : r.m.compress = s.m.compress) (hk : r.k = s.k)
    {items : List (Nat × Body)} {n i : Nat} {ts : List Tmpl} {t : Tmpl} {b : Body} (hmem : (n + 1 + i, b) ∈ items) (hat : TplAt E r s.m.compress s.m.protect n [] ts i t b) :
    FormBox items (readIn E inflate g) (n + 1 + i) g.getConversionRatio t := by
  obtain ⟨len, b', b2, b3⟩ := hat
  subst b2
  have hd := final_read F hg b3
  have hkk : g.getConversionRatio = r.k := hg.k.trans (F.k.symm.trans hk.symm)
  rw [hkk]
  obtain ⟨rest, e⟩ := tplText_box E r t (tabAfter E n [] (ts.take (i + 1))) len
  have hread : readIn E inflate g (n + 1 + i) (tplText E r t (tabAfter E n [] (ts.take (i + 1))) ++ len) b' = t.bytes := by
    unfold readIn
    unfold tplText
    rw [hc, List.append_assoc _ _ len, read_form, hd]
    split
    · exact hinf _
    · rfl
  rw [e] at hmem hread
  refine ⟨_, _, _, rest, b', hmem, numbers_fmt 2 _, fun h => ?_, fun h => ?_, hread⟩
  · rw [h]; simp
  · rw [if_pos (by
      by_contra hx
      push Not at hx
      exact h (Prod.ext hx.1 hx.2))]
    refine ⟨_, rfl, ?_⟩
    have := numbers_fmt 5 [-t.corner.1 * r.k * 2, t.corner.2 * r.k * 2]
    unfold formMat
    dsimp only
    rw [show -2 * t.corner.1 * r.k = -t.corner.1 * r.k * 2 by ring, show 2 * t.corner.2 * r.k = t.corner.2 * r.k * 2 by ring]
    exact this

/-- **C69** In every document built from `New` by a program that does not close it, written without an error, the name under which a template is shown on pages leads, through the resources, to the form of the
template: its contents, a box of its size, and its matrix. (Templates are told apart by their contents: no two templates needed have the same name.) -/
theorem C69_file (E : Ext) (inflate : Bytes → Bytes) (hinf : ∀ b, inflate (E.deflate b) = b) (o u s : Bytes) (sz : Size) (f : Fpdf) (cb : Cb) (wf : Bool)
    (hf : Reach E noClose (Fpdf.new o u s sz) f) (hcb : CbReach E noClose cb) (hok : errOf E cb f wf = none) (hptr : SameTemplates (docOf E cb f wf)) (hsize : (fileOf E cb f wf).length < 10 ^ 10)
    (hid : ∀ a b, Needs (docOf E cb f wf).r.templates a → Needs (docOf E cb f wf).r.templates b → a.id E = b.id E → a = b) :
    ∃ before version items root info dict, IsPdf (fileOf E cb f wf) before version items root info ∧ (2, Body.plain (B "<<\n" ++ dict ++ B ">>\n")) ∈ items ∧
      ∀ k t, lookup k (docOf E cb f wf).r.templates = some t → ∃ n, Names dict (B "XObject") (B "TPL" ++ t.id E) n ∧
        FormBox items (readIn E inflate (docOf E cb f wf)) n (docOf E cb f wf).getConversionRatio t := by
  obtain ⟨last, v, A, P, M, T, d, items, hp⟩ := printed_any hf hcb hok
  have hpdf := hp.written.pdf hsize
  have hn : last.n = 2 := hp.op.n.trans ((new_fresh o u s sz).next (reach_open hf)).n
  have ht := final_templates hp.fin
  have hr := hp.written.root hp.state
  have hto : last.r.templateObjects = [] := last_data (G := noClose) noClose_open tobj_data (fun cb f op ho => tobj_own E cb f op (helper_stays ho)) (fun f cb op _ hs => tobj_own E cb f op hs)
    hf hcb hp.eq hp.page1 (new_get (fun f => f.r.templateObjects) (fun _ => rfl) o u s sz)
  obtain ⟨_, _, _, _, _, _, _, _, hF, _⟩ := hp.written.stages hp.state hn
  obtain ⟨k0, g1, g2⟩ := hp.written.res.tpl
  have hst : (sRoot E last).r.templates = (docOf E cb f wf).r.templates := by rw [hr.tem, ht]
  have hT0 : (sRoot E last).r.templateObjects = [] := hr.tob.trans hto
  rw [hT0] at g1 g2
  obtain ⟨c1, c2, c3⟩ := C32_order (visit E (sRoot E last).m.catalogSort 9 (keys (sRoot E last).r.templates) bytesLe) (sRoot E last).r.templates (fun k => visit_iff E _ _ _ _ k)
    (by rw [hst]; exact samePtr hptr)
  change ∀ t, t ∈ sorted E (sRoot E last) ↔ _ at c1
  rw [hst] at c1
  generalize sorted E (sRoot E last) = ts at *
  refine ⟨_, v, items, _, _, d, hpdf, hp.written.mem_dict, fun k t hk => ?_⟩
  obtain ⟨fs, is, tk, ss, _, _, k3, _, rfl⟩ := hp.written.dictText hp.state hn
  have hi : (sRes E last).r.templates = (docOf E cb f wf).r.templates := (wfix_reg hp.written.mid.fix).2.trans hst
  have hm : t ∈ ts := (c1 t).2 (.used hk)
  obtain ⟨on, ho⟩ := tabAfter_has E ts ((sRoot E last).n + k0) [] (t.id E) (.inl ⟨t, hm, rfl⟩)
  rcases tabAfter_find E _ _ _ _ _ ho with ⟨j, x', e1, e2, e3⟩ | ⟨e1, _⟩
  · obtain rfl : x' = t := hid _ _ ((c1 x').1 (List.mem_of_getElem? e1)) (.used hk) e2
    obtain ⟨b, b1, b2⟩ := g2 j x' e1
    have hmem := hp.written.mem_placed hp.state hn b1
    rw [show (sRoot E last).n + 1 + (k0 + j) = (sRoot E last).n + k0 + 1 + j by omega] at hmem
    refine ⟨(sRoot E last).n + k0 + 1 + j, ⟨_, dict_xobj, List.mem_append_right _ (List.mem_filterMap.2 ⟨k, (k3 k).2 (by rw [hi]; exact lookup_keys hk), ?_⟩)⟩,
      form_box E inflate hinf hF hp.fin hp.written.mid.meta.1 (wfix_page hp.written.mid.fix).2.2.1 hmem b2⟩
    unfold tplEnt
    rw [hi, hk, g1]
    simp [ho, e3]
  · cases e1

/-! ### Examples -/

/-- A document with a page of the default size and a page of another size, on which something is drawn. -/
def posterBegin : Fpdf := after (Fpdf.new [] (B "pt") [] ⟨300, 400⟩) [.addPage, .rect 1 1 5 5 (B "F")]
@[inherit_doc posterBegin] def poster : Fpdf := after (posterBegin.exec {} {} (.addPageFormat (B "p") ⟨300, 500⟩)) [.setFillColor 255 0 0, .rect 1 1 5 5 (B "F")]

/-- The page on which a template of 10 by 10 points is drawn, and one of 30 by 40 points. -/
def leafPage : Fpdf := after (Fpdf.new (B "P") (B "pt") [] ⟨10, 10⟩) [.addPage]
@[inherit_doc leafPage] def stampPage : Fpdf := after (Fpdf.new (B "P") (B "pt") [] ⟨30, 40⟩) [.addPage]

/-- A template of 30 by 40 points created with the corner (10, 20). -/
def stamp : Tmpl := .mk 1 (10, 20) { wd := 30, ht := 40 } (B "q Q\n") [] []

theorem inOrderB_ok (f : Fpdf) (op : Op) (h : (pfB f op && (match op with | .setPage _ => false | _ => true)) = true) : inOrder.op f {} op := by
  rw [Bool.and_eq_true] at h
  exact ⟨pfB_ok f op h.1, by rintro n rfl; simp at h⟩

theorem poster_begin : Reach {} inOrder (Fpdf.new [] (B "pt") [] ⟨300, 400⟩) posterBegin := reach_after (G := inOrder) inOrderB_ok _ _ _ (Reach.refl _) (by decide +kernel)
theorem poster_reach : Reach {} inOrder (posterBegin.exec {} {} (.addPageFormat (B "p") ⟨300, 500⟩)) poster := reach_after (G := inOrder) inOrderB_ok _ _ _ (Reach.refl _) (by decide +kernel)

/-- The hypotheses of `C69_scaled` and `C69_place` are met: the template `leaf` is shown three times as wide and twice as high at (100, 200). -/
example : ∃ m : Mat, Writes poster (poster.exec {} {} (.useTemplate (some leaf) (100, 200) ⟨30, 20⟩)) (shows m (B "TPL" ++ leaf.id {})) ∧
    ∀ x y, m.act (pt leafPage x y) = pt poster (100 + x * 3) (200 + y * 2) := by
  obtain ⟨m, h1, h2⟩ := C69_scaled {} [] (B "pt") [] ⟨300, 400⟩ (by decide +kernel) posterBegin poster {} {} (B "p") ⟨300, 500⟩ poster_begin ⟨by simp, by simp, fun s => Reach.refl s⟩ ⟨by simp, by simp⟩
    (by decide +kernel) poster_reach (by decide +kernel) (by decide +kernel) (by decide +kernel) leaf leafPage (by decide +kernel) (by decide +kernel) (by decide +kernel) (by decide +kernel) rfl (100, 200) ⟨30, 20⟩
  refine ⟨m, h1, fun x y => ?_⟩
  rw [h2]
  show pt poster (100 + x * (30 / 10)) (200 + y * (20 / 10)) = _
  norm_num

/-- The hypotheses of `C69_file` are met by the document `tree`, with the standard SHA-1 replaced by an injective function (`fullHash`). -/
def fullHash : Ext := { oneFont with sha1 := id }

/-- A document that uses two templates. -/
def grove : Fpdf := after (Fpdf.new [] [] [] {})
  [.addPage, .setFont (B "Helvetica") [] 14, .useTemplate (some branch) (0, 0) { wd := 30, ht := 30 }, .addPage, .useTemplate (some leaf) (5, 5) { wd := 10, ht := 10 }] fullHash

example : Reach fullHash noClose (Fpdf.new [] [] [] {}) grove ∧ CbReach fullHash noClose {} ∧ errOf fullHash {} grove false = none ∧ SameTemplates (docOf fullHash {} grove false) ∧
    (fileOf fullHash {} grove false).length < 10 ^ 10 ∧
    ∀ a b, Needs (docOf fullHash {} grove false).r.templates a → Needs (docOf fullHash {} grove false).r.templates b → a.id fullHash = b.id fullHash → a = b := by
  refine ⟨reach_after (G := noClose) (ok := pfB) (fun f op h => ⟨(pfB_ok f op h).1, (pfB_ok f op h).2.1⟩) _ _ _ (Reach.refl _) (by decide +kernel), ⟨by simp, by simp, fun s => Reach.refl s⟩,
    by decide +kernel, same_check (by decide +kernel), by decide +kernel, fun a b ha hb h => ?_⟩
  have key : ((allTemplates (docOf fullHash {} grove false).r.templates).all fun a => (allTemplates (docOf fullHash {} grove false).r.templates).all fun b => decide (a.id fullHash ≠ b.id fullHash) || eqT a b) = true := by
    decide +kernel
  have := List.all_eq_true.1 (List.all_eq_true.1 key a ((needs_iff _ _).1 ha)) b ((needs_iff _ _).1 hb)
  rw [h] at this
  simp only [ne_eq, not_true_eq_false, decide_false, Bool.false_or] at this
  exact eqT_eq a b this

/-- **C69** `UseTemplate` is documented to use "the size and position at which it was originally written". For a template created with a corner other than (0, 0) it does not: everything appears moved by the
corner, to the left and upwards. -/
theorem C69_position_false : ∃ m : Mat, Writes poster (poster.exec {} {} (.useTemplate (some stamp) stamp.corner stamp.size)) (shows m (B "TPL" ++ stamp.id {})) ∧
    ∀ x y, m.act ((formMat poster.getConversionRatio stamp).act (pt stampPage x y)) = pt poster (x - 10) (y - 20) ∧ pt poster (x - 10) (y - 20) ≠ pt poster x y := by
  obtain ⟨m, h1, h2⟩ := C69_place {} [] (B "pt") [] ⟨300, 400⟩ (by decide +kernel) posterBegin poster {} {} (B "p") ⟨300, 500⟩ poster_begin ⟨by simp, by simp, fun s => Reach.refl s⟩ ⟨by simp, by simp⟩
    (by decide +kernel) poster_reach (by decide +kernel) (by decide +kernel) (by decide +kernel) stamp stampPage (by decide +kernel) (by decide +kernel) (by decide +kernel) (by decide +kernel) stamp.corner stamp.size
  refine ⟨m, h1, fun x y => ⟨?_, fun h => ?_⟩⟩
  · rw [h2]
    show pt poster (10 + (x - 2 * 10) * (30 / 30)) (20 + (y - 2 * 20) * (40 / 40)) = _
    congr 1 <;> ring
  · have h := congrArg Prod.fst h
    have hk : poster.getConversionRatio = 1 := by decide +kernel
    unfold pt px at h
    rw [hk] at h
    dsimp only at h
    linarith

/-- A landscape document, a landscape template of 300 by 100 points and the page it is drawn on. -/
def wideDoc : Fpdf := after (Fpdf.new (B "L") (B "pt") [] ⟨300, 400⟩) [.addPage]
@[inherit_doc wideDoc] def widePage : Fpdf := after (Fpdf.new (B "L") (B "pt") [] ⟨100, 300⟩) [.addPage]
@[inherit_doc wideDoc] def wideTmpl : Tmpl := .mk 1 (0, 0) { wd := 100, ht := 300 } (B "q Q\n") [] []

/-- **C69** On landscape pages the position is not the one asked for either: the page size before it is turned is used. A landscape template asked for in the upper left corner, in its own size, appears 100 points
lower. -/
theorem C69_landscape_false : wideDoc.getPageSize = (400, 300) ∧ widePage.getPageSize = (300, 100) ∧ ∃ m : Mat,
    Writes wideDoc (wideDoc.exec {} {} (.useTemplate (some wideTmpl) (0, 0) wideTmpl.size)) (shows m (B "TPL" ++ wideTmpl.id {})) ∧ m.act (pt widePage 0 0) = pt wideDoc 0 100 ∧ pt wideDoc 0 100 ≠ pt wideDoc 0 0 :=
  ⟨by decide +kernel, by decide +kernel, _, Wrote.writes (wrote_template {} wideDoc (by decide +kernel) (by decide +kernel) wideTmpl (0, 0) wideTmpl.size), by decide +kernel, by decide +kernel⟩

end Verif.Props
