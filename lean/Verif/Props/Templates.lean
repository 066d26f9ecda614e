import Verif.Proof.Order
import Verif.Props.Resources
/-
Claim C32: templates.
-/
namespace Verif.Props
open Verif Verif.Model Verif.Spec Verif.Proof

/-- The templates that a document needs: those used by it, and those used by templates it needs. -/
inductive Needs (m : List (Bytes × Tmpl)) : Tmpl → Prop
  | used {k : Bytes} {t : Tmpl} : lookup k m = some t → Needs m t
  | nested {t d : Tmpl} : Needs m t → d ∈ t.deps → Needs m d

mutual
theorem chain_needs {m : List (Bytes × Tmpl)} : ∀ t : Tmpl, Needs m t → ∀ x ∈ chainDeps t, Needs m x
  | .mk p c s b i ds => by
    intro h x hx
    unfold chainDeps at hx
    rcases List.mem_append.1 hx with hx | hx
    · exact chainL_needs ds (fun d hd => .nested h hd) x hx
    · rw [List.mem_singleton.1 hx]; exact h
theorem chainL_needs {m : List (Bytes × Tmpl)} : ∀ ds : List Tmpl, (∀ d ∈ ds, Needs m d) → ∀ x ∈ chainDeps.chainDepsL ds, Needs m x
  | [] => by
    intro _ x hx
    unfold chainDeps.chainDepsL at hx
    cases hx
  | d :: r => by
    intro h x hx
    unfold chainDeps.chainDepsL at hx
    rcases List.mem_append.1 hx with hx | hx
    · exact chain_needs d (h d List.mem_cons_self) x hx
    · exact chainL_needs r (fun d hd => h d (List.mem_cons_of_mem _ hd)) x hx
end

theorem needs_iff (m : List (Bytes × Tmpl)) (x : Tmpl) : Needs m x ↔ x ∈ allTemplates m := by
  constructor
  · intro h
    induction h with
    | @used k t h =>
      unfold allTemplates
      exact List.mem_flatMap.2 ⟨k, lookup_keys h, by rw [h]; exact chainDeps_self t⟩
    | @nested t d _ hd ih =>
      have hc := flat_closed (keys m) m
      obtain ⟨pre, post, e⟩ := List.append_of_mem ih
      rcases hc pre t post e d hd with h | h
      · cases h
      · rw [e]; exact List.mem_append_left _ h
  · intro h
    unfold allTemplates at h
    obtain ⟨k, _, h⟩ := List.mem_flatMap.1 h
    split at h
    · next t ht => exact chain_needs t (.used ht) x h
    · cases h

/-- **C32.** The order in which templates are written: the list contains the templates needed and no others, no template twice, and each one after those it uses. (`ks` are the keys of the map of
templates, in the order in which they are visited.) -/
theorem C32_order (ks : List Bytes) (m : List (Bytes × Tmpl)) (hks : ∀ k, k ∈ ks ↔ k ∈ keys m) (hptr : ∀ a b, Needs m a → Needs m b → a.ptr = b.ptr → a = b) :
    (∀ t, t ∈ sortTemplates ks m ↔ Needs m t) ∧ (sortTemplates ks m).Nodup ∧ ∀ pre t post, sortTemplates ks m = pre ++ t :: post → ∀ d ∈ t.deps, d ∈ pre := by
  obtain ⟨h1, h2⟩ := sort_order ks m
  have hm : ∀ x, x ∈ (ks.flatMap fun k => match lookup k m with | some t => chainDeps t | none => []) ↔ x ∈ allTemplates m := by
    intro x
    unfold allTemplates
    simp only [List.mem_flatMap]
    exact ⟨fun ⟨k, a, b⟩ => ⟨k, (hks k).1 a, b⟩, fun ⟨k, a, b⟩ => ⟨k, (hks k).2 a, b⟩⟩
  have hsub : ∀ t, t ∈ sortTemplates ks m → Needs m t := by
    intro t ht
    unfold sortTemplates at ht
    rcases dedup_sub _ _ _ ht with h | h
    · cases h
    · exact (needs_iff m t).2 ((hm t).1 h)
  refine ⟨fun t => ⟨hsub t, fun h => ?_⟩, h1.of_map, fun pre t post e d hd => ?_⟩
  · obtain ⟨t', a, b⟩ := mem_dedup _ [] t (.inr ((hm t).2 ((needs_iff m t).1 h)))
    have := hptr t' t (hsub t' a) h b
    rw [← this]; exact a
  · obtain ⟨d', a, b⟩ := List.mem_map.1 (h2 pre t post e d hd)
    have ht : Needs m t := hsub t (by rw [e]; simp)
    have := hptr d' d (hsub d' (by rw [e]; exact List.mem_append_left _ a)) (.nested ht hd) b
    rw [← this]; exact a

theorem samePtr {f : Fpdf} (h : SameTemplates f) (a b : Tmpl) (ha : Needs f.r.templates a) (hb : Needs f.r.templates b) (he : a.ptr = b.ptr) : a = b :=
  h a ((needs_iff _ _).1 ha) b ((needs_iff _ _).1 hb) he

/-- Object `n` of the file is the form of template `t`. -/
structure FormAt (items : List (Nat × Body)) (read : Nat → Bytes → Bytes → Bytes) (n : Nat) (t : Tmpl) (dict : Bytes) : Prop where
  form : ∃ data filter, (n, Body.stream dict data) ∈ items ∧ B "<<" ++ filter ++ B "/Type /XObject\n/Subtype /Form\n" <+: dict ∧ read n dict data = t.bytes

theorem tobj_data : DataRel (fun f g => f.r.templateObjects = [] → g.r.templateObjects = []) where
  trans := fun _ _ _ a b h => b (a h)
  stp := fun f g h x => by
    have e := congrArg (fun f : Fpdf => f.r.templateObjects) h
    have e : g.r.templateObjects = f.r.templateObjects := e
    rw [e]; exact x

theorem tobj_own (E : Ext) (cb : Cb) (f : Fpdf) (op : Op) (hs : staysOnPage op = true) (h : f.r.templateObjects = []) : (f.exec E cb op).r.templateObjects = [] := by
  have : (f.exec E cb op).r.templateObjects = f.r.templateObjects := foot_get (fun f => f.r.templateObjects) E cb f op hs (fun f => by
    cases op <;> rfl)
  rw [this]; exact h

theorem take_pre {α} {l : List α} {i : Nat} {x : α} (h : l[i]? = some x) : l = l.take i ++ x :: l.drop (i + 1) := by
  obtain ⟨h1, h2⟩ := List.getElem?_eq_some_iff.1 h
  rw [← h2, ← List.drop_eq_getElem_cons h1, List.take_append_drop]

theorem read_form (inflate : Bytes → Bytes) (decrypt : Nat → Bytes → Bytes) (n : Nat) (c : Bool) (rest data : Bytes) :
    readStream inflate decrypt n (B "<<" ++ (if c then B "/Filter /FlateDecode " else []) ++ B "/Type /XObject\n/Subtype /Form\n" ++ rest) data =
      if c then inflate (decrypt n data) else decrypt n data := by
  cases c <;> rfl

theorem final_read {E : Ext} {f g s : Fpdf} (F : Final E f s) (hg : Final E f g) {n : Nat} {b c : Bytes} (h : Holds E.md5 s.m.protect n b c) : decryptOf E g n c = b :=
  Holds.read (hg.encrypted.trans F.encrypted.symm) (hg.key.trans F.key.symm) h

/-- The object of one template. -/
theorem form_block (E : Ext) (inflate : Bytes → Bytes) (hinf : ∀ b, inflate (E.deflate b) = b) {f g s r : Fpdf} (F : Final E f s) (hg : Final E f g) (hc : r.m.compress = s.m.compress)
    {items : List (Nat × Body)} {n i : Nat} {ts : List Tmpl} {t : Tmpl} {b : Body} (hmem : (n + 1 + i, b) ∈ items) (hat : TplAt E r s.m.compress s.m.protect n [] ts i t b)
    (hi : ts[i]? = some t) (hdep : ∀ x ∈ t.deps, x ∈ ts.take i) :
    ∃ d, FormAt items (readIn E inflate g) (n + 1 + i) t d ∧
      (∀ x ∈ t.deps, ∃ (j : Nat) (x' : Tmpl), ts[j]? = some x' ∧ x'.id E = x.id E ∧ (j < i ∨ (j = i ∧ x.id E = t.id E)) ∧ Names d (B "XObject") (B "TPL" ++ x.id E) (n + 1 + j)) ∧
      (∀ k font, lookup k r.t.fonts = some font → Names d (B "Font") (B "F" ++ font.i) font.n) ∧
      ∀ k (p : Nat) im, lookup k t.images = some p → r.r.imgHeap[p]? = some im → Names d (B "XObject") (B "I" ++ im.i) im.n := by
  obtain ⟨len, b', b2, b3⟩ := hat
  subst b2
  have hd := final_read F hg b3
  refine ⟨_, ⟨_, (if r.m.compress then B "/Filter /FlateDecode " else []), hmem, ?_, ?_⟩, fun x hx => ?_, fun k font hk => ?_, fun k p im hk hp => ?_⟩
  · unfold tplText
    simp only [List.append_assoc]
    exact List.prefix_append_right_inj _ |>.2 (List.prefix_append_right_inj _ |>.2 (List.prefix_append _ _))
  · unfold readIn
    unfold tplText
    rw [hc, List.append_assoc _ _ len, read_form, hd]
    split
    · exact hinf _
    · rfl
  · have hxp : x ∈ ts.take i := hdep x hx
    have htk : ts.take (i + 1) = ts.take i ++ [t] := by rw [List.take_succ, hi]; rfl
    obtain ⟨on, ho⟩ := tabAfter_has E (ts.take (i + 1)) n [] (x.id E) (.inl ⟨x, by rw [htk]; exact List.mem_append_left _ hxp, rfl⟩)
    rcases tabAfter_find E _ _ _ _ _ ho with ⟨j, x', e1, e2, e3⟩ | ⟨e1, _⟩
    · have hj : j < i + 1 := by
        have := (List.getElem?_eq_some_iff.1 e1).1
        rw [List.length_take] at this
        omega
      rw [List.getElem?_take, if_pos hj] at e1
      refine ⟨j, x', e1, e2, ?_, ?_⟩
      · by_cases hji : j = i
        · subst hji
          rw [e1] at hi
          obtain rfl : x' = t := Option.some.inj hi
          exact .inr ⟨rfl, e2.symm⟩
        · exact .inl (by omega)
      · refine ⟨tplXObjects E r t (tabAfter E n [] (ts.take (i + 1))), ?_, ?_⟩
        · unfold tplText
          have hdp : t.images.length > 0 ∨ t.deps.length > 0 := .inr (List.length_pos_of_mem hx)
          rw [if_pos hdp]
          generalize sect (B "Font") _ = y1
          generalize tplBox _ t = y2
          generalize tplXObjects _ _ _ _ = es
          generalize (if r.m.compress then B "/Filter /FlateDecode " else []) = y3
          refine sect_category (a := B "<<" ++ y3 ++ B "/Type /XObject\n/Subtype /Form\n" ++ (B "/Formtype 1\n" ++ y2 ++ B "/Resources \n<</ProcSet [/PDF /Text /ImageB /ImageC /ImageI]\n" ++ y1))
            (b := B ">>\n" ++ len) ?_
          simp only [List.append_assoc]
        · unfold tplXObjects
          refine List.mem_append_right _ (List.mem_filterMap.2 ⟨x, hx, ?_⟩)
          unfold tplDep
          rw [ho, e3]
          rfl
    · cases e1
  · refine ⟨tplFonts E r, ?_, ?_⟩
    · unfold tplText
      generalize tplFonts E _ = es
      generalize tplBox _ t = y2
      generalize (if t.images.length > 0 ∨ t.deps.length > 0 then _ else _ : Bytes) = y4
      generalize (if r.m.compress then B "/Filter /FlateDecode " else []) = y3
      refine sect_category (a := B "<<" ++ y3 ++ B "/Type /XObject\n/Subtype /Form\n" ++ (B "/Formtype 1\n" ++ y2 ++ B "/Resources \n<</ProcSet [/PDF /Text /ImageB /ImageC /ImageI]\n"))
        (b := y4 ++ B ">>\n" ++ len) ?_
      simp only [List.append_assoc]
    · unfold tplFonts
      refine List.mem_filterMap.2 ⟨k, (visit_iff E _ _ _ _ k).2 (lookup_keys hk), ?_⟩
      unfold fontEnt
      rw [hk]
      rfl
  · refine ⟨tplXObjects E r t (tabAfter E n [] (ts.take (i + 1))), ?_, ?_⟩
    · unfold tplText
      have hdp : t.images.length > 0 ∨ t.deps.length > 0 := by
        refine .inl ?_
        cases hx : t.images with
        | nil => rw [hx] at hk; cases hk
        | cons _ _ => simp
      rw [if_pos hdp]
      generalize sect (B "Font") _ = y1
      generalize tplBox _ t = y2
      generalize tplXObjects _ _ _ _ = es
      generalize (if r.m.compress then B "/Filter /FlateDecode " else []) = y3
      refine sect_category (a := B "<<" ++ y3 ++ B "/Type /XObject\n/Subtype /Form\n" ++ (B "/Formtype 1\n" ++ y2 ++ B "/Resources \n<</ProcSet [/PDF /Text /ImageB /ImageC /ImageI]\n" ++ y1))
        (b := B ">>\n" ++ len) ?_
      simp only [List.append_assoc]
    · unfold tplXObjects
      refine List.mem_append_left _ (List.mem_filterMap.2 ⟨k, (E.ord_perm 8 _).mem_iff.2 (lookup_keys hk), ?_⟩)
      unfold tplImg
      rw [hk]
      show (r.r.imgHeap[p]?).map _ = _
      rw [hp]
      rfl

set_option linter.constructorNameAsVariable false in
set_option maxHeartbeats 1000000 in
/-- **C32.** In every document built from `New` by a program that does not close it, written without an error, there is a list of all the templates needed – those used and those used by templates needed –
such that each one is in the list once and is written as one object of the file, the objects being in the order of the list, and the contents of the object are the contents of the template. In the
resources of each object, every template used by the template is named, with the number of the object of a template with this name; it comes before the template, unless a template uses one of the same name.
Every font of the document is named in the resources too. The names of templates used on pages lead to these objects. -/
theorem C32_templates (E : Ext) (inflate : Bytes → Bytes) (hinf : ∀ b, inflate (E.deflate b) = b) (o u s : Bytes) (sz : Size) (f : Fpdf) (cb : Cb) (wf : Bool)
    (hf : Reach E noClose (Fpdf.new o u s sz) f) (hcb : CbReach E noClose cb) (hok : errOf E cb f wf = none) (hptr : SameTemplates (docOf E cb f wf)) (hsize : (fileOf E cb f wf).length < 10 ^ 10) :
    ∃ before version items root info dict, ∃ ts : List Tmpl, ∃ n : Nat, IsPdf (fileOf E cb f wf) before version items root info ∧ (2, Body.plain (B "<<\n" ++ dict ++ B ">>\n")) ∈ items ∧
      (∀ t, t ∈ ts ↔ Needs (docOf E cb f wf).r.templates t) ∧ ts.Nodup ∧
      (∀ (i : Nat) t, ts[i]? = some t → ∃ d, FormAt items (readIn E inflate (docOf E cb f wf)) (n + i) t d ∧
        (∀ x ∈ t.deps, ∃ (j : Nat) (x' : Tmpl), ts[j]? = some x' ∧ x'.id E = x.id E ∧ (j < i ∨ (j = i ∧ x.id E = t.id E)) ∧ Names d (B "XObject") (B "TPL" ++ x.id E) (n + j)) ∧
        ∀ k font, lookup k (drawn E cb f).t.fonts = some font → ∃ m rest, Names d (B "Font") (B "F" ++ font.i) m ∧ (m, Body.plain (B "<</Type /Font\n" ++ rest)) ∈ items) ∧
      ∀ k t, lookup k (docOf E cb f wf).r.templates = some t → ∃ (j : Nat) (t' : Tmpl), ts[j]? = some t' ∧ t'.id E = t.id E ∧ Names dict (B "XObject") (B "TPL" ++ t.id E) (n + j) := by
  obtain ⟨last, v, A, P, M, T, d, items, hp⟩ := printed_any hf hcb hok
  have hpdf := hp.written.pdf hsize
  have hn : last.n = 2 := hp.op.n.trans ((new_fresh o u s sz).next (reach_open hf)).n
  have ht := final_templates hp.fin
  have hr := hp.written.root hp.state
  have hto : last.r.templateObjects = [] := last_data (G := noClose) noClose_open tobj_data (fun cb f op ho => tobj_own E cb f op (helper_stays ho)) (fun f cb op _ hs => tobj_own E cb f op hs)
    hf hcb hp.eq hp.page1 (new_get (fun f => f.r.templateObjects) (fun _ => rfl) o u s sz)
  obtain ⟨_, _, _, _, _, _, _, _, hF, _⟩ := hp.written.stages hp.state hn
  obtain ⟨k0, g1, g2⟩ := hp.written.res.tpl
  have hst : (sRoot E last).r.templates = (docOf E cb f wf).r.templates := by rw [hr.tem, ht]
  have hT0 : (sRoot E last).r.templateObjects = [] := hr.tob.trans hto
  rw [hT0] at g1 g2
  obtain ⟨c1, c2, c3⟩ := C32_order (visit E (sRoot E last).m.catalogSort 9 (keys (sRoot E last).r.templates) bytesLe) (sRoot E last).r.templates (fun k => visit_iff E _ _ _ _ k)
    (by rw [hst]; exact samePtr hptr)
  change ∀ t, t ∈ sorted E (sRoot E last) ↔ _ at c1
  change (sorted E (sRoot E last)).Nodup at c2
  change ∀ pre t post, sorted E (sRoot E last) = pre ++ t :: post → _ at c3
  rw [hst] at c1
  generalize sorted E (sRoot E last) = ts at *
  refine ⟨_, v, items, _, _, d, ts, (sRoot E last).n + k0 + 1, hpdf, hp.written.mem_dict, c1, c2, fun i t hi => ?_, fun k t hk => ?_⟩
  · obtain ⟨b, b1, b2⟩ := g2 i t hi
    have hmem := hp.written.mem_placed hp.state hn b1
    rw [show (sRoot E last).n + 1 + (k0 + i) = (sRoot E last).n + k0 + 1 + i by omega] at hmem
    obtain ⟨dd, d1, d2, d3, _⟩ := form_block E inflate hinf hF hp.fin hp.written.mid.meta.1 hmem b2 hi (fun x hx => c3 _ t _ (take_pre hi) x hx)
    refine ⟨dd, d1, d2, fun k font hk => ?_⟩
    have hfo : drawn E cb f = last := hp.eq.symm
    rw [hfo] at hk
    obtain ⟨j, rest, q1, q2⟩ := hp.written.res.fon k font (by rw [hr.fon]; exact hk)
    have d4 := d3 k _ q1
    exact ⟨_, rest, d4, hp.written.mem_placed hp.state hn q2⟩
  · obtain ⟨fs, is, tk, ss, _, _, k3, _, rfl⟩ := hp.written.dictText hp.state hn
    have hi : (sRes E last).r.templates = (docOf E cb f wf).r.templates := (wfix_reg hp.written.mid.fix).2.trans hst
    have hm : t ∈ ts := (c1 t).2 (.used hk)
    obtain ⟨on, ho⟩ := tabAfter_has E ts ((sRoot E last).n + k0) [] (t.id E) (.inl ⟨t, hm, rfl⟩)
    rcases tabAfter_find E _ _ _ _ _ ho with ⟨j, x', e1, e2, e3⟩ | ⟨e1, _⟩
    · refine ⟨j, x', e1, e2, _, dict_xobj, List.mem_append_right _ (List.mem_filterMap.2 ⟨k, (k3 k).2 (by rw [hi]; exact lookup_keys hk), ?_⟩)⟩
      unfold tplEnt
      rw [hi, hk, g1]
      simp [ho, e3]
    · cases e1

/-! ### Examples -/

mutual
/-- Equality of templates, as a program. -/
def eqT : Tmpl → Tmpl → Bool
  | .mk p c s b i ds, .mk p' c' s' b' i' ds' => p == p' && (decide (c = c') && (decide (s.wd = s'.wd) && (decide (s.ht = s'.ht) && (decide (b = b') && (decide (i = i') && eqTs ds ds')))))
@[inherit_doc eqT] def eqTs : List Tmpl → List Tmpl → Bool
  | [], [] => true
  | a :: r, a' :: r' => eqT a a' && eqTs r r'
  | [], _ :: _ | _ :: _, [] => false
end

mutual
theorem eqT_eq : ∀ a b : Tmpl, eqT a b = true → a = b
  | .mk p c s b i ds, .mk p' c' s' b' i' ds' => by
    intro h
    unfold eqT at h
    simp only [Bool.and_eq_true, decide_eq_true_eq, beq_iff_eq] at h
    obtain ⟨rfl, rfl, h1, h2, rfl, rfl, h⟩ := h
    obtain rfl : s = s' := by cases s; cases s'; subst h1; subst h2; rfl
    rw [eqTs_eq ds ds' h]
theorem eqTs_eq : ∀ a b : List Tmpl, eqTs a b = true → a = b
  | [], [] => fun _ => rfl
  | a :: r, a' :: r' => by
    intro h
    unfold eqTs at h
    rw [Bool.and_eq_true] at h
    rw [eqT_eq a a' h.1, eqTs_eq r r' h.2]
  | [], _ :: _ => by intro h; unfold eqTs at h; cases h
  | _ :: _, [] => by intro h; unfold eqTs at h; cases h
end

theorem same_check {f : Fpdf} (h : ((allTemplates f.r.templates).all fun a => (allTemplates f.r.templates).all fun b => a.ptr != b.ptr || eqT a b) = true) : SameTemplates f := by
  intro a ha b hb he
  have := List.all_eq_true.1 (List.all_eq_true.1 h a ha) b hb
  rw [he] at this
  simp only [bne_self_eq_false, Bool.false_or] at this
  exact eqT_eq a b this

/-- Three templates: `leaf` is used by `twig` and `branch`, `twig` by `branch`. -/
def leaf : Tmpl := .mk 1 (0, 0) { wd := 10, ht := 10 } (B "q Q\n") [] []
@[inherit_doc leaf] def twig : Tmpl := .mk 2 (0, 0) { wd := 20, ht := 20 } (B "0 g\n") [] [leaf]
@[inherit_doc leaf] def branch : Tmpl := .mk 3 (0, 0) { wd := 30, ht := 30 } (B "0 G\n") [] [twig, leaf]

/-- A document that uses `branch` and `leaf`. -/
def tree : Fpdf := after (Fpdf.new [] [] [] {})
  [.addPage, .setFont (B "Helvetica") [] 14, .useTemplate (some branch) (0, 0) { wd := 30, ht := 30 }, .addPage, .useTemplate (some leaf) (5, 5) { wd := 10, ht := 10 }] oneFont

theorem tree_reach : Reach oneFont noClose (Fpdf.new [] [] [] {}) tree :=
  reach_after (G := noClose) (ok := pfB) (fun f op h => ⟨(pfB_ok f op h).1, (pfB_ok f op h).2.1⟩) _ _ _ (Reach.refl _) (by decide +kernel)

/-- The hypotheses of `C32_templates` hold of it; the templates are written in the order `leaf`, `twig`, `branch`. -/
example : CbReach oneFont noClose {} ∧ errOf oneFont {} tree false = none ∧ SameTemplates (docOf oneFont {} tree false) ∧ (fileOf oneFont {} tree false).length < 10 ^ 10 ∧
    (sorted oneFont tree).map Tmpl.ptr = [1, 2, 3] :=
  ⟨⟨by simp, by simp, fun s => Reach.refl s⟩, by decide +kernel, same_check (by decide +kernel), by decide +kernel, by decide +kernel⟩

end Verif.Props
