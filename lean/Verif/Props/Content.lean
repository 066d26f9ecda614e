import Verif.Proof.Tidy
import Verif.Props.Outline
/-
The contents of the pages: balanced graphics states and layers, resources that exist.
-/
namespace Verif.Props
open Verif Verif.Model Verif.Spec Verif.Proof

theorem new_colors (o u s : Bytes) (sz : Size) : (Fpdf.new o u s sz).c.draw = rgbColorValue 0 0 0 "G" "RG" ∧ (Fpdf.new o u s sz).c.fill = rgbColorValue 0 0 0 "g" "rg" ∧
    (Fpdf.new o u s sz).c.text = rgbColorValue 0 0 0 "g" "rg" := by
  unfold Fpdf.new
  dsimp only
  split
  · exact ⟨rfl, rfl, rfl⟩
  · split
    · exact ⟨rfl, rfl, rfl⟩
    · split
      · exact ⟨rfl, rfl, rfl⟩
      · rw [display_default]
        exact ⟨rfl, rfl, rfl⟩

theorem new_pinv (o u s : Bytes) (sz : Size) : PInv (Fpdf.new o u s sz) := by
  obtain ⟨_, _, n3, n4, n5, _⟩ := new_open o u s sz
  obtain ⟨c1, c2, c3⟩ := new_colors o u s sz
  have hr : regsOf (Fpdf.new o u s sz) = regsOf {} := new_get regsOf (fun _ => rfl) o u s sz
  have hl : lvl (Fpdf.new o u s sz) = lvl {} := new_get lvl (fun _ => rfl) o u s sz
  have hi : (Fpdf.new o u s sz).t.currentFont.i = [] := new_get (fun f => f.t.currentFont.i) (fun _ => rfl) o u s sz
  have hb : (Fpdf.new o u s sz).r.blendMap = [] := new_get (fun f => f.r.blendMap) (fun _ => rfl) o u s sz
  refine ⟨.inl ⟨n3, n4, by rw [n5]; rfl, lvl_nest hl, lvl_lay hl⟩, fun hx => ?_, ?_, ?_⟩
  · rw [lvl_lay hl] at hx; cases hx
  · intro n b hn hb
    rw [n5, List.getElem?_eq_none (by simpa using hn)] at hb
    cases hb
  · unfold Proof.Inv
    rw [c1, c2, c3, hr, hi, hb]
    refine ⟨(rgb_plain_draw 0 0 0).col _, (rgb_plain_fill 0 0 0).col _, (rgb_plain_fill 0 0 0).col _, .inl rfl, ?_, ?_, ?_⟩
    · intro k d h; cases h
    · intro im h; cases h
    · intro k p h; cases h

/-- The pages when the file is written. -/
theorem printed_closed {E : Ext} {o u s : Bytes} {sz : Size} {f : Fpdf} {cb : Cb} {wf : Bool} (hf : Reach E (tidy E) (Fpdf.new o u s sz) f) (hcb : CbReach E (tidy E) cb)
    (ht : CbTidy cb) (hok : errOf E cb f wf = none) : ∃ last v A P M T d items, Printed E cb f (docOf E cb f wf) last (fileOf E cb f wf) v A P M T d items ∧ last.buffer = [] ∧ Closed last := by
  obtain ⟨last, v, A, P, M, T, d, items, hp, hb⟩ := printed_pf (reach_tidy hf) (CbReach.tidy hcb) hok
  refine ⟨last, v, A, P, M, T, d, items, hp, hb, ?_⟩
  have hfr := pf_fresh (reach_tidy hf)
  have hq : CbQ cb := CbQ.of (hcb.rel (fun _ _ h => reach_pr h)) ht
  have hce : (f.close E cb).err = none := (output_ok hfr.state hok).1
  have hfe : f.err = none ∧ nestOf f = 0 := by
    unfold Fpdf.close at hce
    dsimp only at hce
    by_cases h1 : f.err = none
    · refine ⟨h1, ?_⟩
      rw [if_pos h1] at hce
      by_cases h2 : f.clipNest > 0
      · rw [if_pos h2] at hce; simp [Fpdf.assignErr] at hce
      · rw [if_neg h2] at hce
        by_cases h3 : f.transformNest > 0
        · rw [if_pos h3] at hce; simp [Fpdf.assignErr] at hce
        · unfold nestOf; omega
    · rw [if_neg h1, if_pos h1] at hce; exact absurd hce h1
  have hpf := ((reach_pr hf).2 hfe.1 (new_pinv o u s sz)).1
  have e1 := hp.err1
  have p1 := hp.page1
  have e2 := hp.err
  rw [hp.eq] at e2 ⊢
  have h1 : PInv (if f.page = 0 then f.addPage E cb else f) ∧ nestOf (if f.page = 0 then f.addPage E cb else f) = 0 := by
    split
    · next hp0 =>
      rw [if_pos hp0] at e1
      unfold Fpdf.addPage at e1 ⊢
      rw [if_neg (by simp [hfe.1])] at e1 ⊢
      rcases (addPage_qr hq E f f.p.defOrientation f.p.defPageSize).2 e1 hpf with ⟨x, _⟩ | ⟨x, _, y⟩
      · exact absurd hfe.2 x
      · exact ⟨x, y.trans hfe.2⟩
    · exact ⟨hpf, hfe.2⟩
  generalize (if f.page = 0 then f.addPage E cb else f) = g at h1 p1 e2 ⊢
  have hlat : (g.runFooter cb true).err ≠ none → (g.runFooter cb true).endpage.err ≠ none := (endLayer_frm _).latch
  have hr := hq.runFooter true g p1
  obtain ⟨q1, _, q3⟩ := hr.2 (none_of hlat e2) h1.1
  exact (q1.close (hr.1.2.keep (none_of hlat e2) (h1.1.state p1)).1 (q3.trans h1.2)).1

/-- **C11, C12** In every document built from `New` by a program that keeps to the discipline `tidy` (call-backs included) and does not use aliases, and written without
error, the contents of every page are balanced: every graphics state saved is restored, never one that was not saved, and every layer section that is opened is closed on
the same page, never inside another. -/
theorem C11_balanced (E : Ext) (inflate : Bytes → Bytes) (hinf : ∀ b, inflate (E.deflate b) = b) (o u s : Bytes) (sz : Size) (f : Fpdf) (cb : Cb) (wf : Bool)
    (hf : Reach E (tidy E) (Fpdf.new o u s sz) f) (hcb : CbReach E (tidy E) cb) (ht : CbTidy cb) (hok : errOf E cb f wf = none)
    (hal : (docOf E cb f wf).m.aliasMap = []) (hsize : (fileOf E cb f wf).length < 10 ^ 10) :
    ∃ version items root info kids rest, IsPdf (fileOf E cb f wf) [] version items root info ∧ PageTree items kids rest ∧ kids.length = (docOf E cb f wf).page ∧
      ∀ i, i < kids.length → ∃ size annots content, PageObject items (readIn E inflate (docOf E cb f wf)) (kids.getD i 0) size annots content ∧ Balanced content := by
  obtain ⟨last, v, A, P, M, T, d, items, hp, hb, hcl⟩ := printed_closed hf hcb ht hok
  obtain ⟨kids, rest, k1, k2, k3, k4⟩ := pages_of_file hinf hp
  have hpdf := hp.written.pdf hsize
  rw [hb] at hpdf
  refine ⟨v, items, _, _, kids, rest, hpdf, k1, k2, fun i hi => ?_⟩
  obtain ⟨size, annots, h1⟩ := k4 i (by omega)
  refine ⟨size, annots, _, h1, ?_⟩
  rw [hp.subst (i + 1) (by omega) (by omega), hal, subst_nil]
  rw [List.getD_eq_getElem?_getD]
  cases hx : last.pages[i + 1]? with
  | none => decide
  | some b =>
    obtain ⟨is, l1, _, l3⟩ := hcl.pages (i + 1) b (by omega) hx
    show nestRun (0, false) (instrs b) = _
    rw [l1.instrs]; exact l3

/-- The operators of a page that open and close layer sections. -/
def sections (b : Bytes) : List Bytes := ((instrs b).map (·.2)).filter fun w => w = B "BDC" ∨ w = B "BMC" ∨ w = B "EMC"

/-- Opened, closed, opened, closed, … -/
inductive Alternating : List Bytes → Prop
  | nil : Alternating []
  | pair {l : List Bytes} (w : Bytes) : w = B "BDC" ∨ w = B "BMC" → Alternating l → Alternating (w :: B "EMC" :: l)

theorem sections_of_run (is : List Instr) : ∀ (s : Nest) (d : Nat), nestRun s is = some (d, false) →
    let ws := (is.map (·.2)).filter fun w => w = B "BDC" ∨ w = B "BMC" ∨ w = B "EMC"
    if s.2 then ∃ r, ws = B "EMC" :: r ∧ Alternating r else Alternating ws := by
  induction is with
  | nil =>
    intro s d h
    simp only [nestRun, Option.some.injEq] at h
    subst h
    exact Alternating.nil
  | cons i is ih =>
    intro s d h
    simp only [nestRun] at h
    cases hst : nestStep s i with
    | none => rw [hst] at h; cases h
    | some s' =>
      rw [hst] at h
      have ih := ih s' d h
      unfold nestStep at hst
      dsimp only at ih ⊢
      rw [List.map_cons]
      by_cases h1 : i.2 = B "q"
      · rw [if_pos h1] at hst; cases hst
        rw [List.filter_cons_of_neg (by rw [h1]; decide)]; exact ih
      rw [if_neg h1] at hst
      by_cases h2 : i.2 = B "Q"
      · rw [if_pos h2] at hst
        split at hst <;> cases hst
        rw [List.filter_cons_of_neg (by rw [h2]; decide)]; exact ih
      rw [if_neg h2] at hst
      by_cases h3 : i.2 = B "BDC" ∨ i.2 = B "BMC"
      · rw [if_pos h3] at hst
        rw [List.filter_cons_of_pos (by rcases h3 with h3 | h3 <;> rw [h3] <;> decide)]
        cases hs : s.2 with
        | true => rw [hs] at hst; simp at hst
        | false =>
          rw [hs] at hst
          simp only [Bool.false_eq_true, if_false, Option.some.injEq] at hst
          subst hst
          simp only [if_true] at ih
          obtain ⟨r, hr, ha⟩ := ih
          simp only [Bool.false_eq_true, if_false]
          rw [hr]
          exact .pair _ h3 ha
      rw [if_neg h3] at hst
      by_cases h4 : i.2 = B "EMC"
      · rw [if_pos h4] at hst
        rw [List.filter_cons_of_pos (by rw [h4]; decide)]
        cases hs : s.2 with
        | false => rw [hs] at hst; simp at hst
        | true =>
          rw [hs] at hst
          simp only [if_true, Option.some.injEq] at hst
          subst hst
          simp only [Bool.false_eq_true, if_false] at ih
          simp only [if_true]
          exact ⟨_, by rw [h4], ih⟩
      · rw [if_neg h4] at hst
        cases hst
        rw [List.filter_cons_of_neg (by simp only [decide_eq_true_eq]; tauto)]; exact ih

theorem Balanced.sections {b : Bytes} (h : Balanced b) : Alternating (Props.sections b) := sections_of_run (instrs b) (0, false) 0 h

/-- **C12** For the same documents: on every page, layer sections are opened and closed in turn, the last one is closed, and none is inside another. -/
theorem C12_layers (E : Ext) (inflate : Bytes → Bytes) (hinf : ∀ b, inflate (E.deflate b) = b) (o u s : Bytes) (sz : Size) (f : Fpdf) (cb : Cb) (wf : Bool)
    (hf : Reach E (tidy E) (Fpdf.new o u s sz) f) (hcb : CbReach E (tidy E) cb) (ht : CbTidy cb) (hok : errOf E cb f wf = none)
    (hal : (docOf E cb f wf).m.aliasMap = []) (hsize : (fileOf E cb f wf).length < 10 ^ 10) :
    ∃ version items root info kids rest, IsPdf (fileOf E cb f wf) [] version items root info ∧ PageTree items kids rest ∧ kids.length = (docOf E cb f wf).page ∧
      ∀ i, i < kids.length → ∃ size annots content, PageObject items (readIn E inflate (docOf E cb f wf)) (kids.getD i 0) size annots content ∧ Alternating (sections content) := by
  obtain ⟨v, items, root, info, kids, rest, h1, h2, h3, h4⟩ := C11_balanced E inflate hinf o u s sz f cb wf hf hcb ht hok hal hsize
  refine ⟨v, items, root, info, kids, rest, h1, h2, h3, fun i hi => ?_⟩
  obtain ⟨a, b, c, h5, h6⟩ := h4 i hi
  exact ⟨a, b, c, h5, Balanced.sections h6⟩

/-! ### Examples -/

/-- A check for `tidy` (with the default call-backs). -/
def tidyB (E : Ext) (f : Fpdf) (op : Op) : Bool :=
  pfB f op && (match op with
    | .rect _ _ _ _ s | .polygon _ s | .beziergon _ s | .curve _ _ _ _ _ _ s | .curveBezierCubic _ _ _ _ _ _ _ _ s | .arc _ _ _ _ _ _ _ s _
    | .drawPath s => decide (fillDrawOp s ∈ paintOps)
    | .roundedRect .. | .rawWrite _ | .useTemplate .. => false
    | .setPage _ => nestOf f == 0 && !layOf f
    | .beginLayer _ => f.page + 1 == f.pages.length
    | _ => true) && (nestOf f == 0 || (f.exec E {} op).pages.length == f.pages.length)

theorem cbTidy_none : CbTidy {} := ⟨by simp, by simp, fun s _ _ => rfl⟩

theorem tidyB_ok (E : Ext) (f : Fpdf) (op : Op) (h : tidyB E f op = true) : (tidy E).op f {} op := by
  unfold tidyB at h
  simp only [Bool.and_eq_true, Bool.or_eq_true, beq_iff_eq] at h
  obtain ⟨⟨h1, h2⟩, h3⟩ := h
  refine ⟨pfB_ok f op h1, ?_, ?_, ?_, fun hn => h3.resolve_left hn, cbTidy_none⟩
  · cases op <;> first | trivial | simpa [DrawOk] using h2
  · rintro n rfl; simpa using h2
  · rintro n rfl; simpa using h2

/-- Two pages with a clipping, a transformation, transparency and a layer that is left open when the second page is added. -/
def layered : Fpdf := after (Fpdf.new [] [] [] {})
  [.addLayer (B "L") true, .addPage, .clipRect 1 1 50 50 true, .rect 2 2 9 9 (B "FD"), .clipEnd, .setAlpha (1 / 2) (B "Multiply"), .beginLayer 0, .line 1 1 2 2, .addPage,
   .transformBegin, .transformScale 50 50 0 0, .gradient false 1 1 5 5 (0, 0, 0) (9, 9, 9) 0 0 1 1 0, .transformEnd, .setPage 1, .line 3 3 4 4, .setPage 2]

theorem layered_reach : Reach {} (tidy {}) (Fpdf.new [] [] [] {}) layered := reach_after (tidyB_ok {}) _ _ _ (Reach.refl _) (by decide +kernel)

/-- The hypotheses are met by a document with clipping, transformations and layers. -/
example : Reach {} (tidy {}) (Fpdf.new [] [] [] {}) layered ∧ CbReach {} (tidy {}) {} ∧ CbTidy {} ∧ errOf {} {} layered false = none ∧
    (docOf {} {} layered false).m.aliasMap = [] ∧ (fileOf {} {} layered false).length < 10 ^ 10 ∧ (docOf {} {} layered false).page = 2 ∧
    sections ((docOf {} {} layered false).pages.getD 1 []) = [B "BDC", B "EMC"] :=
  ⟨layered_reach, ⟨by simp, by simp, fun s => Reach.refl s⟩, cbTidy_none, by decide +kernel, by decide +kernel, by decide +kernel, by decide +kernel, by decide +kernel⟩

/-- `RoundedRect` saves a graphics state and never restores it. -/
theorem C11_roundedRect_false : ∃ f, Reach {} pagesFirst (Fpdf.new [] [] [] {}) f ∧ errOf {} {} f false = none ∧
    ¬ Balanced ((docOf {} {} f false).pages.getD 1 []) :=
  ⟨after (Fpdf.new [] [] [] {}) [.addPage, .roundedRect 1 1 20 20 2 2 2 2 (B "D")], reach_after pfB_ok _ _ _ (Reach.refl _) (by decide +kernel), by decide +kernel,
    by decide +kernel⟩

/-- A page added inside a clipping: neither page is balanced, and no error is reported. -/
theorem C11_page_in_clip_false : ∃ f, Reach {} pagesFirst (Fpdf.new [] [] [] {}) f ∧ errOf {} {} f false = none ∧
    ¬ Balanced ((docOf {} {} f false).pages.getD 1 []) ∧ ¬ Balanced ((docOf {} {} f false).pages.getD 2 []) :=
  ⟨after (Fpdf.new [] [] [] {}) [.addPage, .clipRect 1 1 50 50 false, .addPage, .clipEnd], reach_after pfB_ok _ _ _ (Reach.refl _) (by decide +kernel), by decide +kernel,
    by decide +kernel, by decide +kernel⟩

/-- `SetPage` while a layer is open: the section is closed on another page. -/
theorem C12_setPage_false : ∃ f, Reach {} pagesFirst (Fpdf.new [] [] [] {}) f ∧ errOf {} {} f false = none ∧
    sections ((docOf {} {} f false).pages.getD 1 []) = [B "EMC"] ∧ sections ((docOf {} {} f false).pages.getD 2 []) = [B "BDC"] :=
  ⟨after (Fpdf.new [] [] [] {}) [.addLayer (B "L") true, .addPage, .addPage, .beginLayer 0, .setPage 1, .endLayer, .setPage 2],
    reach_after pfB_ok _ _ _ (Reach.refl _) (by decide +kernel), by decide +kernel, by decide +kernel, by decide +kernel⟩

end Verif.Props
