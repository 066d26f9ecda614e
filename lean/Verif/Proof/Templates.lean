import Verif.Proof.Dict
import Verif.Proof.Keep
/-
The objects of templates.
-/
namespace Verif.Proof
open Verif Verif.Model Verif.Spec

theorem Ap.k {f g : Fpdf} {b : Bytes} (h : Ap f g b) : g.k = f.k := by unfold Ap at h; subst h; rfl

/-- The entries of the images of a template, in its resource dictionary. -/
def tplImg (f : Fpdf) (t : Tmpl) (k : Bytes) : Option (Bytes × Nat) := ((lookup k t.images).bind (f.r.imgHeap[·]?)).map fun d => (B "I" ++ d.i, d.n)

/-- The entry of a template used by a template, in its resource dictionary, given the table of the templates written. -/
def tplDep (E : Ext) (tab : List (Bytes × Nat)) (d : Tmpl) : Option (Bytes × Nat) := (lookup (d.id E) tab).map fun o => (B "TPL" ++ d.id E, o)

/-- The entries for the fonts of the document. -/
def tplFonts (E : Ext) (f : Fpdf) : List (Bytes × Nat) := (visit E f.m.catalogSort 7 (keys f.t.fonts) bytesLe).filterMap (fontEnt f)

/-- The entries for images and templates. -/
def tplXObjects (E : Ext) (f : Fpdf) (t : Tmpl) (tab : List (Bytes × Nat)) : List (Bytes × Nat) := (E.ord 8 (keys t.images)).filterMap (tplImg f t) ++ t.deps.filterMap (tplDep E tab)

/-- The box of a template. -/
def tplBox (k : Rat) (t : Tmpl) : Bytes :=
  sprintf "/BBox [%.2f %.2f %.2f %.2f]" [.f (t.corner.1 * k), .f (t.corner.2 * k), .f ((t.corner.1 + t.size.wd) * k), .f ((t.corner.2 + t.size.ht) * k)] ++ [10] ++
    if t.corner.1 ≠ 0 ∨ t.corner.2 ≠ 0 then sprintf "/Matrix [1 0 0 1 %.5f %.5f]" [.f (-t.corner.1 * k * 2), .f (t.corner.2 * k * 2)] ++ [10] else []

/-- The dictionary of a template up to its length. -/
def tplText (E : Ext) (f : Fpdf) (t : Tmpl) (tab : List (Bytes × Nat)) : Bytes :=
  B "<<" ++ (if f.m.compress then B "/Filter /FlateDecode " else []) ++ B "/Type /XObject\n/Subtype /Form\n" ++
    (B "/Formtype 1\n" ++ tplBox f.k t ++ B "/Resources \n<</ProcSet [/PDF /Text /ImageB /ImageC /ImageI]\n" ++ sect (B "Font") (tplFonts E f) ++
      (if t.images.length > 0 ∨ t.deps.length > 0 then sect (B "XObject") (tplXObjects E f t tab) else []) ++ B ">>\n")

/-- The program that writes it, after the first two lines. -/
def tplChain (E : Ext) (f : Fpdf) (t : Tmpl) : Fpdf :=
  let f := f.outs "/Formtype 1"
  let f := f.outf "/BBox [%.2f %.2f %.2f %.2f]" [.f (t.corner.1 * f.k), .f (t.corner.2 * f.k), .f ((t.corner.1 + t.size.wd) * f.k),
    .f ((t.corner.2 + t.size.ht) * f.k)]
  let f := if t.corner.1 ≠ 0 ∨ t.corner.2 ≠ 0 then
      f.outf "/Matrix [1 0 0 1 %.5f %.5f]" [.f (-t.corner.1 * f.k * 2), .f (t.corner.2 * f.k * 2)]
    else f
  let f := f.outs "/Resources "
  let f := f.outs "<</ProcSet [/PDF /Text /ImageB /ImageC /ImageI]"
  let f := f.templateFontCatalog E
  let f := f.putTemplateXObjects E t
  f.outs ">>"

/-- The rest. -/
def tplEnd (E : Ext) (f : Fpdf) (t : Tmpl) : Fpdf :=
  let b := if f.m.compress then E.deflate t.bytes else t.bytes
  let f := f.outf "/Length %d >>" [.d b.length]
  (f.putstream E.md5 b).outs "endobj"

theorem putTemplate_parts (E : Ext) (f : Fpdf) (t : Tmpl) :
    f.putTemplate E t = tplEnd E (tplChain E (((tplHead E f t).outf "<<%s/Type /XObject" [.s (if (tplHead E f t).m.compress then B "/Filter /FlateDecode " else [])]).outs "/Subtype /Form") t) t := rfl

theorem deps_ap (E : Ext) (f : Fpdf) (ds : List Tmpl) : ∀ g : Fpdf, g.r = f.r → g.state = 1 →
    Ap g (ds.foldl (fun f tt => match lookup (tt.id E) f.r.templateObjects with | some o => f.outf "/TPL%s %d 0 R" [.s (tt.id E), .d o] | none => f) g)
      ((ds.filterMap (tplDep E f.r.templateObjects)).flatMap refLine) := by
  induction ds with
  | nil => intro g _ _; exact Ap.refl g
  | cons a r ih =>
    intro g h1 h2
    rw [List.foldl_cons, List.filterMap_cons]
    unfold tplDep
    rw [h1]
    cases lookup (a.id E) f.r.templateObjects with
    | none => exact ih g h1 h2
    | some o =>
      have ha : Ap g (g.outf "/TPL%s %d 0 R" [.s (a.id E), .d o]) (refLine (B "TPL" ++ a.id E, o)) := ap_line h2 (t_line _ _)
      have hr := ih _ (ha.r.trans h1) (ha.state.trans h2)
      exact ha.trans hr

theorem timg_ap (f : Fpdf) (t : Tmpl) (ks : List Bytes) (g : Fpdf) (h1 : g.t = f.t) (h2 : g.r = f.r) (h3 : g.state = 1) :
    Ap g (ks.foldl (fun f k => match (lookup k t.images).bind (f.r.imgHeap[·]?) with | some ti => f.outf "/I%s %d 0 R" [.s ti.i, .d ti.n] | none => f) g) ((ks.filterMap (tplImg f t)).flatMap refLine) := by
  refine keyed_ap _ _ ?_ ks g h1 h2 h3
  intro g k a b c
  unfold tplImg
  rw [b]
  cases (lookup k t.images).bind (f.r.imgHeap[·]?) with
  | none => exact Ap.refl g
  | some d => exact ap_line c (i_line _ _)

theorem tplXObjects_ap (E : Ext) {f g : Fpdf} (hs : f.state = 1) {b : Bytes} (h : Ap f g b) (t : Tmpl) :
    Ap f (g.putTemplateXObjects E t) (b ++ if t.images.length > 0 ∨ t.deps.length > 0 then sect (B "XObject") (tplXObjects E f t f.r.templateObjects) else []) := by
  unfold Fpdf.putTemplateXObjects
  dsimp only
  refine optSect_ap hs h "/XObject <<" rfl ?_
  have hg := h.out hs (B "/XObject <<")
  have h1 := timg_ap f t (E.ord 8 (keys t.images)) (g.outs "/XObject <<") hg.t hg.r (hg.state.trans hs)
  have h2 := deps_ap E f t.deps _ (h1.r.trans hg.r) (h1.state.trans (hg.state.trans hs))
  have := h1.trans h2
  unfold tplXObjects
  rw [List.flatMap_append]
  exact this

theorem tplFonts_ap (E : Ext) {f g : Fpdf} (hs : f.state = 1) {b : Bytes} (h : Ap f g b) : Ap f (g.templateFontCatalog E) (b ++ sect (B "Font") (tplFonts E f)) := by
  unfold Fpdf.templateFontCatalog
  dsimp only
  refine sect_ap hs h "/Font <<" rfl ?_
  have hg := h.out hs (B "/Font <<")
  have := font_ap E f (visit E (g.outs "/Font <<").m.catalogSort 7 (keys (g.outs "/Font <<").t.fonts) bytesLe) (g.outs "/Font <<") hg.t hg.r (hg.state.trans hs)
  unfold tplFonts
  have e1 : (g.outs "/Font <<").m = f.m := hg.m
  have e2 : (g.outs "/Font <<").t = f.t := hg.t
  rw [e1, e2] at this ⊢
  exact this

theorem tplChain_ap (E : Ext) {f g : Fpdf} (hs : f.state = 1) {b : Bytes} (h : Ap f g b) (t : Tmpl) :
    Ap f (tplChain E g t) (b ++ (B "/Formtype 1\n" ++ tplBox f.k t ++ B "/Resources \n<</ProcSet [/PDF /Text /ImageB /ImageC /ImageI]\n" ++ sect (B "Font") (tplFonts E f) ++
      (if t.images.length > 0 ∨ t.deps.length > 0 then sect (B "XObject") (tplXObjects E f t f.r.templateObjects) else []) ++ B ">>\n")) := by
  unfold tplChain tplBox
  dsimp only
  have hk := h.k
  have h1 := h.out hs (B "/Formtype 1")
  change Ap f (g.outs "/Formtype 1") _ at h1
  have k1 := h1.k
  generalize g.outs "/Formtype 1" = g1 at h1 k1 ⊢
  rw [k1]
  have h2 := h1.out hs (sprintf "/BBox [%.2f %.2f %.2f %.2f]" [.f (t.corner.1 * f.k), .f (t.corner.2 * f.k), .f ((t.corner.1 + t.size.wd) * f.k), .f ((t.corner.2 + t.size.ht) * f.k)])
  change Ap f (g1.outf "/BBox [%.2f %.2f %.2f %.2f]" [.f (t.corner.1 * f.k), .f (t.corner.2 * f.k), .f ((t.corner.1 + t.size.wd) * f.k), .f ((t.corner.2 + t.size.ht) * f.k)]) _ at h2
  have k2 := h2.k
  generalize sprintf "/BBox [%.2f %.2f %.2f %.2f]" [.f (t.corner.1 * f.k), .f (t.corner.2 * f.k), .f ((t.corner.1 + t.size.wd) * f.k), .f ((t.corner.2 + t.size.ht) * f.k)] = box at h2 ⊢
  generalize g1.outf "/BBox [%.2f %.2f %.2f %.2f]" [.f (t.corner.1 * f.k), .f (t.corner.2 * f.k), .f ((t.corner.1 + t.size.wd) * f.k), .f ((t.corner.2 + t.size.ht) * f.k)] = g2 at h2 k2 ⊢
  rw [k2]
  have h3 : Ap f (if t.corner.1 ≠ 0 ∨ t.corner.2 ≠ 0 then g2.outf "/Matrix [1 0 0 1 %.5f %.5f]" [.f (-t.corner.1 * f.k * 2), .f (t.corner.2 * f.k * 2)] else g2)
      (b ++ (B "/Formtype 1" ++ [10]) ++ (box ++ [10]) ++ if t.corner.1 ≠ 0 ∨ t.corner.2 ≠ 0 then sprintf "/Matrix [1 0 0 1 %.5f %.5f]" [.f (-t.corner.1 * f.k * 2), .f (t.corner.2 * f.k * 2)] ++ [10] else []) := by
    split
    · exact h2.out hs _
    · rw [List.append_nil]; exact h2
  generalize (if t.corner.1 ≠ 0 ∨ t.corner.2 ≠ 0 then sprintf "/Matrix [1 0 0 1 %.5f %.5f]" [.f (-t.corner.1 * f.k * 2), .f (t.corner.2 * f.k * 2)] ++ [10] else []) = mat at h3 ⊢
  generalize (if t.corner.1 ≠ 0 ∨ t.corner.2 ≠ 0 then g2.outf "/Matrix [1 0 0 1 %.5f %.5f]" [.f (-t.corner.1 * f.k * 2), .f (t.corner.2 * f.k * 2)] else g2) = g3 at h3 ⊢
  have h4 := (h3.out hs (B "/Resources ")).out hs (B "<</ProcSet [/PDF /Text /ImageB /ImageC /ImageI]")
  have h5 := (tplXObjects_ap E hs (tplFonts_ap E hs h4) t).out hs (B ">>")
  have e : ∀ x y z : Bytes, b ++ (B "/Formtype 1" ++ [10]) ++ (box ++ [10]) ++ mat ++ (B "/Resources " ++ [10]) ++ (B "<</ProcSet [/PDF /Text /ImageB /ImageC /ImageI]" ++ [10]) ++ x ++ y ++ (B ">>" ++ [10]) =
      b ++ (B "/Formtype 1\n" ++ (box ++ [10] ++ mat) ++ B "/Resources \n<</ProcSet [/PDF /Text /ImageB /ImageC /ImageI]\n" ++ x ++ y ++ B ">>\n") := by
    intro x y z
    rw [show B "/Formtype 1\n" = B "/Formtype 1" ++ [10] from rfl, show B "/Resources \n<</ProcSet [/PDF /Text /ImageB /ImageC /ImageI]\n" = B "/Resources " ++ ([10] ++ (B "<</ProcSet [/PDF /Text /ImageB /ImageC /ImageI]" ++ [10])) from rfl,
      show B ">>\n" = B ">>" ++ [10] from rfl]
    simp only [List.append_assoc]
  rw [e _ _ []] at h5
  exact h5

/-- The object of a template, with its whole dictionary. -/
theorem putTemplate_full (E : Ext) (f : Fpdf) (t : Tmpl) (hs : f.state = 1) (hr : f.m.protect.rc4n ≤ f.n) :
    ∃ len b', W f (f.putTemplate E t) [.stream (tplText E f t (Model.insert (t.id E) (f.n + 1) f.r.templateObjects) ++ len) b'] ∧
      Holds E.md5 f.m.protect (f.n + 1) (if f.m.compress then E.deflate t.bytes else t.bytes) b' ∧
      (f.putTemplate E t).r.templateObjects = Model.insert (t.id E) (f.n + 1) f.r.templateObjects := by
  have h1 := tplHead_ap E f hs t
  have hs1 : (tplHead E f t).state = 1 := (newobj_state f).trans hs
  have hto : (tplHead E f t).r.templateObjects = Model.insert (t.id E) (f.n + 1) f.r.templateObjects := by
    unfold tplHead; dsimp only; rw [(newobj_spec f hs).2.1, newobj_r]
  have k1 : wfix (tplHead E f t) = wfix f.newobj := tpl_wfix _ _
  have k6 : (tplHead E f t).m.protect = f.m.protect := newobj_protect f
  have hm : (tplHead E f t).m = f.m := newobj_m f
  have hk : (tplHead E f t).k = f.k := by
    show f.newobj.k = f.k
    have e := congrArg (fun x : Fpdf => x.k) (newobj_spec f hs).2.2.2.2
    exact e
  have ht : (tplHead E f t).t.fonts = f.t.fonts := by
    show f.newobj.t.fonts = f.t.fonts
    have e := congrArg (fun x : Fpdf => x.t.fonts) (newobj_spec f hs).2.2.2.2
    exact e
  have hi : (tplHead E f t).r.imgHeap = f.r.imgHeap := by
    show f.newobj.r.imgHeap = f.r.imgHeap
    rw [newobj_r]
  rw [putTemplate_parts]
  have h2 := tplChain_ap E hs1 h1 t
  generalize tplChain E _ t = g2 at h2 ⊢
  have et : tplText E f t (Model.insert (t.id E) (f.n + 1) f.r.templateObjects) = B "<<" ++ (if f.m.compress then B "/Filter /FlateDecode " else []) ++ B "/Type /XObject\n/Subtype /Form\n" ++
      (B "/Formtype 1\n" ++ tplBox (tplHead E f t).k t ++ B "/Resources \n<</ProcSet [/PDF /Text /ImageB /ImageC /ImageI]\n" ++ sect (B "Font") (tplFonts E (tplHead E f t)) ++
      (if t.images.length > 0 ∨ t.deps.length > 0 then sect (B "XObject") (tplXObjects E (tplHead E f t) t (tplHead E f t).r.templateObjects) else []) ++ B ">>\n") := by
    unfold tplText
    have e1 : tplFonts E (tplHead E f t) = tplFonts E f := by
      unfold tplFonts
      have : fontEnt (tplHead E f t) = fontEnt f := by funext k; unfold fontEnt; rw [ht]
      rw [this, hm, ht]
    have e2 : tplXObjects E (tplHead E f t) t (tplHead E f t).r.templateObjects = tplXObjects E f t (Model.insert (t.id E) (f.n + 1) f.r.templateObjects) := by
      unfold tplXObjects
      have : tplImg (tplHead E f t) t = tplImg f t := by funext k; unfold tplImg; rw [hi]
      rw [this, hto]
    rw [e1, e2, hk]
  rw [← et] at h2
  unfold tplEnd
  dsimp only
  have hc : g2.m.compress = f.m.compress := by rw [h2.m, hm]
  rw [hc]
  generalize hdt : (if f.m.compress then E.deflate t.bytes else t.bytes) = data
  have hd : Declares (sprintf "/Length %d >>" [.d (data.length : Nat)] ++ [10]) data.length := len_decl (p := []) (c := 0x20) (q := B ">>") (sprintfB_of_render _ _ _ rfl) rfl
  have h4 := h2.out hs1 (sprintf "/Length %d >>" [.d (data.length : Nat)])
  obtain ⟨b', w, hh⟩ := W.tplStream E.md5 hs hr k1 rfl rfl rfl (tpl_rc _ _) k6 h4 (Declares_left hd _)
  refine ⟨_, b', w, hh, ?_⟩
  refine (putstream_tpl _ _ (h4.state.trans hs1) _).trans ?_
  have := congrArg (fun x => x.templateObjects) h4.r
  exact this.trans hto

/-- The table of template objects after these templates have been written. -/
def tabAfter (E : Ext) : Nat → List (Bytes × Nat) → List Tmpl → List (Bytes × Nat)
  | _, m, [] => m
  | n, m, t :: r => tabAfter E (n + 1) (Model.insert (t.id E) (n + 1) m) r

theorem tabAfter_find (E : Ext) (ts : List Tmpl) : ∀ (n : Nat) (m : List (Bytes × Nat)) (h : Bytes) (o : Nat), lookup h (tabAfter E n m ts) = some o →
    (∃ (j : Nat) (t : Tmpl), ts[j]? = some t ∧ t.id E = h ∧ o = n + 1 + j) ∨ (lookup h m = some o ∧ ∀ t ∈ ts, t.id E ≠ h) := by
  induction ts with
  | nil => intro n m h o e; exact .inr ⟨e, by simp⟩
  | cons a r ih =>
    intro n m h o e
    rcases ih (n + 1) _ h o e with ⟨j, t, h1, h2, h3⟩ | ⟨h1, h4⟩
    · exact .inl ⟨j + 1, t, h1, h2, by omega⟩
    · by_cases ha : h = a.id E
      · subst ha
        rw [lookup_insert_self] at h1
        simp only [Option.some.injEq] at h1
        exact .inl ⟨0, a, rfl, rfl, by omega⟩
      · rw [lookup_insert_ne _ _ ha] at h1
        refine .inr ⟨h1, fun t ht => ?_⟩
        rcases List.mem_cons.1 ht with rfl | ht
        · exact fun e => ha e.symm
        · exact h4 t ht

theorem tabAfter_has (E : Ext) (ts : List Tmpl) : ∀ (n : Nat) (m : List (Bytes × Nat)) (h : Bytes), (∃ t ∈ ts, t.id E = h) ∨ (∃ o, lookup h m = some o) → ∃ o, lookup h (tabAfter E n m ts) = some o := by
  induction ts with
  | nil =>
    intro n m h e
    rcases e with ⟨t, ht, _⟩ | e
    · cases ht
    · exact e
  | cons a r ih =>
    intro n m h e
    refine ih (n + 1) _ h ?_
    by_cases ha : h = a.id E
    · subst ha
      exact .inr ⟨_, lookup_insert_self ..⟩
    · rcases e with ⟨t, ht, rfl⟩ | ⟨o, e⟩
      · rcases List.mem_cons.1 ht with rfl | ht
        · exact absurd rfl ha
        · exact .inl ⟨t, ht, rfl⟩
      · exact .inr ⟨o, by rw [lookup_insert_ne _ _ ha]; exact e⟩

/-- What the text of a template depends on. -/
theorem tplText_congr {E : Ext} {f g : Fpdf} (h1 : g.m.compress = f.m.compress) (h2 : g.k = f.k) (h3 : g.m.catalogSort = f.m.catalogSort) (h4 : g.t.fonts = f.t.fonts) (h5 : g.r.imgHeap = f.r.imgHeap) (t : Tmpl)
    (tab : List (Bytes × Nat)) : tplText E g t tab = tplText E f t tab := by
  unfold tplText
  have e1 : tplFonts E g = tplFonts E f := by
    unfold tplFonts
    have : fontEnt g = fontEnt f := by funext k; unfold fontEnt; rw [h4]
    rw [this, h3, h4]
  have e2 : tplXObjects E g t tab = tplXObjects E f t tab := by
    unfold tplXObjects
    have : tplImg g t = tplImg f t := by funext k; unfold tplImg; rw [h5]
    rw [this]
  rw [e1, e2, h1, h2]

/-- The object of the `i`th template of `ts`, when the first one has the number `n + 1`. -/
def TplAt (E : Ext) (g : Fpdf) (compress : Bool) (pr : Protect) (n : Nat) (tab : List (Bytes × Nat)) (ts : List Tmpl) (i : Nat) (t : Tmpl) (b : Body) : Prop :=
  ∃ len b', b = .stream (tplText E g t (tabAfter E n tab (ts.take (i + 1))) ++ len) b' ∧ Holds E.md5 pr (n + 1 + i) (if compress then E.deflate t.bytes else t.bytes) b'

theorem tplLoop_full (E : Ext) (ts : List Tmpl) : ∀ (f : Fpdf), f.state = 1 → f.m.protect.rc4n ≤ f.n →
    ∃ objs, W f (ts.foldl (Fpdf.putTemplate E) f) objs ∧ objs.length = ts.length ∧ (ts.foldl (Fpdf.putTemplate E) f).r.templateObjects = tabAfter E f.n f.r.templateObjects ts ∧
      ∀ (i : Nat) t, ts[i]? = some t → ∃ b, objs[i]? = some b ∧ TplAt E f f.m.compress f.m.protect f.n f.r.templateObjects ts i t b := by
  induction ts with
  | nil => intro f hs hr; exact ⟨[], W.refl f, rfl, rfl, fun i t h => by cases h⟩
  | cons a r ih =>
    intro f hs hr
    rw [List.foldl_cons]
    obtain ⟨len, b', w1, hh, h2⟩ := putTemplate_full E f a hs hr
    have kp := (putTemplate_keep E f a hs).2
    generalize f.putTemplate E a = g at w1 h2 kp ⊢
    obtain ⟨objs, w2, q0, q1, q2⟩ := ih g (w1.state.trans hs) (w1.rc hr)
    have hgn : g.n = f.n + 1 := w1.n
    refine ⟨_, w1.trans w2, by simp [q0], ?_, fun i t ht => ?_⟩
    · rw [q1, h2, hgn]; rfl
    · cases i with
      | zero =>
        obtain rfl : a = t := by simpa using ht
        exact ⟨_, rfl, len, b', rfl, hh⟩
      | succ i =>
        obtain ⟨b, s1, len, b2, s2, s3⟩ := q2 i t ht
        refine ⟨b, s1, len, b2, ?_, ?_⟩
        · rw [s2, h2, hgn]
          rw [tplText_congr (f := f) (g := g) w1.meta.1 ?_ w1.meta.2 ?_ ?_]
          · rfl
          · have e := congrArg (fun x : Fpdf => x.k) w1.fix
            exact e
          · have e := congrArg Res.fonts kp
            exact e
          · have e := congrArg Res.imgHeap kp
            exact e
        · rw [hgn, show f.n + 1 + 1 + i = f.n + 1 + (i + 1) by omega, w1.meta.1] at s3
          exact Holds.of_wfix w1.fix s3

theorem TplAt.obj {E : Ext} {g : Fpdf} {compress : Bool} {pr : Protect} {n : Nat} {tab : List (Bytes × Nat)} {ts : List Tmpl} {i : Nat} {t : Tmpl} {b : Body} (hc : g.m.compress = compress)
    (h : TplAt E g compress pr n tab ts i t b) : TplObj E compress pr (n + 1 + i) t b := by
  obtain ⟨len, b', h1, h2⟩ := h
  unfold tplText at h1
  rw [hc] at h1
  rw [List.append_assoc _ _ len] at h1
  exact ⟨_, b', h1, h2⟩

/-- The templates of a document, in the order in which they are written. -/
def sorted (E : Ext) (f : Fpdf) : List Tmpl := sortTemplates (visit E f.m.catalogSort 9 (keys f.r.templates) bytesLe) f.r.templates

theorem templates_w (E : Ext) (f : Fpdf) (hs : f.state = 1) (hr : f.m.protect.rc4n ≤ f.n) :
    ∃ objs, W f (f.putTemplates E) objs ∧ (PtrOk f.r.templates → ∀ k t, lookup k f.r.templates = some t → ∃ i b t', lookup (t.id E) (f.putTemplates E).r.templateObjects = some (f.n + 1 + i) ∧
      objs[i]? = some b ∧ t'.id E = t.id E ∧ TplObj E f.m.compress f.m.protect (f.n + 1 + i) t' b) ∧
      (f.putTemplates E).r.templateObjects = tabAfter E f.n f.r.templateObjects (sorted E f) ∧
      ∀ (i : Nat) t, (sorted E f)[i]? = some t → ∃ b, objs[i]? = some b ∧ TplAt E f f.m.compress f.m.protect f.n f.r.templateObjects (sorted E f) i t b := by
  obtain ⟨objs, w, h0, h1, h2⟩ := tplLoop_full E (sorted E f) f hs hr
  refine ⟨objs, w, fun hp k t hk => ?_, h1, h2⟩
  have hm : t ∈ sorted E f := sort_mem _ _ (fun k => visit_iff E _ _ _ _ k) hp hk
  obtain ⟨o, ho⟩ := tabAfter_has E (sorted E f) f.n f.r.templateObjects (t.id E) (.inl ⟨t, hm, rfl⟩)
  rcases tabAfter_find E _ _ _ _ _ ho with ⟨j, t', a, b, c⟩ | ⟨_, a⟩
  · obtain ⟨bd, b1, b2⟩ := h2 j t' a
    refine ⟨j, bd, t', ?_, b1, b, b2.obj rfl⟩
    show lookup _ ((sorted E f).foldl (Fpdf.putTemplate E) f).r.templateObjects = _
    rw [h1, ho, c]
  · exact absurd rfl (a t hm)

end Verif.Proof
