import Verif.Proof.Resources
/-
The text of the resource dictionary.
-/
namespace Verif.Proof
open Verif Verif.Model Verif.Spec

theorem refLine_text (pre : Bytes) (nm : Bytes) (k : Nat) : pre ++ (nm ++ (B " " ++ (intDec (k : Int) ++ B " 0 R"))) ++ [10] = pre ++ nm ++ B " " ++ decimal k ++ B " 0 R\n" := by
  rw [intDec_ofNat, natDec_decimal, show B " 0 R\n" = B " 0 R" ++ [10] from rfl]
  simp only [List.append_assoc]

theorem keyed_ap {f : Fpdf} (step : Fpdf → Bytes → Fpdf) (ent : Bytes → Option (Bytes × Nat))
    (h : ∀ g k, g.t = f.t → g.r = f.r → g.state = 1 → Ap g (step g k) (match ent k with | some e => refLine e | none => [])) (ks : List Bytes) :
    ∀ g, g.t = f.t → g.r = f.r → g.state = 1 → Ap g (ks.foldl step g) ((ks.filterMap ent).flatMap refLine) := by
  induction ks with
  | nil => intro g _ _ _; exact Ap.refl g
  | cons a r ih =>
    intro g h1 h2 h3
    have ha := h g a h1 h2 h3
    have hr := ih (step g a) (ha.t.trans h1) (ha.r.trans h2) (ha.state.trans h3)
    rw [List.foldl_cons]
    have := ha.trans hr
    rw [List.filterMap_cons]
    cases he : ent a with
    | none => rw [he] at this; simpa using this
    | some e => rw [he] at this; simpa [List.flatMap_cons] using this

/-- Entries numbered from `i`. -/
def numEntries (pre : Bytes) (i : Nat) (l : List Nat) : List (Bytes × Nat) := l.mapIdx fun j o => (pre ++ natDec (i + j), o)

theorem numEntries_cons (pre : Bytes) (i a : Nat) (l : List Nat) : numEntries pre i (a :: l) = (pre ++ natDec i, a) :: numEntries pre (i + 1) l := by
  unfold numEntries
  rw [List.mapIdx_cons]
  congr 1
  refine List.mapIdx_eq_mapIdx_iff.2 fun j hj => ?_
  rw [show i + 1 + j = i + (j + 1) by omega]

theorem numbered_ap (fmt : String) (pre : Bytes) (h : ∀ i o : Nat, sprintf fmt [.d i, .d o] ++ [10] = refLine (pre ++ natDec i, o)) (l : List Nat) :
    ∀ (i : Nat) (g : Fpdf), g.state = 1 → Ap g (Fpdf.putNumbered fmt i l g) ((numEntries pre i l).flatMap refLine) := by
  induction l with
  | nil => intro i g _; exact Ap.refl g
  | cons a r ih =>
    intro i g hs
    unfold Fpdf.putNumbered
    have h1 := (Ap.refl g).out hs (sprintf fmt [.d i, .d a])
    have h2 := ih (i + 1) _ (h1.state.trans hs)
    have := h1.trans h2
    rw [numEntries_cons, List.flatMap_cons, ← h]
    simp only [List.nil_append] at this
    exact this

theorem gs_line (i o : Nat) : sprintf "/GS%d %d 0 R" [.d i, .d o] ++ [10] = refLine (B "GS" ++ natDec i, o) := by
  have e : sprintf "/GS%d %d 0 R" [.d i, .d o] = B "/GS" ++ (intDec (i : Int) ++ (B " " ++ (intDec (o : Int) ++ B " 0 R"))) := sprintfB_of_render _ _ _ rfl
  rw [e, refLine_text, show B "/GS" = B "/" ++ B "GS" from rfl, intDec_ofNat]; unfold refLine; simp only [List.append_assoc]
theorem sh_line (i o : Nat) : sprintf "/Sh%d %d 0 R" [.d i, .d o] ++ [10] = refLine (B "Sh" ++ natDec i, o) := by
  have e : sprintf "/Sh%d %d 0 R" [.d i, .d o] = B "/Sh" ++ (intDec (i : Int) ++ (B " " ++ (intDec (o : Int) ++ B " 0 R"))) := sprintfB_of_render _ _ _ rfl
  rw [e, refLine_text, show B "/Sh" = B "/" ++ B "Sh" from rfl, intDec_ofNat]; unfold refLine; simp only [List.append_assoc]
theorem oc_line (i o : Nat) : sprintf "/OC%d %d 0 R" [.d i, .d o] ++ [10] = refLine (B "OC" ++ natDec i, o) := by
  have e : sprintf "/OC%d %d 0 R" [.d i, .d o] = B "/OC" ++ (intDec (i : Int) ++ (B " " ++ (intDec (o : Int) ++ B " 0 R"))) := sprintfB_of_render _ _ _ rfl
  rw [e, refLine_text, show B "/OC" = B "/" ++ B "OC" from rfl, intDec_ofNat]; unfold refLine; simp only [List.append_assoc]
theorem cs_line (i o : Nat) : sprintf "/CS%d %d 0 R" [.d i, .d o] ++ [10] = refLine (B "CS" ++ natDec i, o) := by
  have e : sprintf "/CS%d %d 0 R" [.d i, .d o] = B "/CS" ++ (intDec (i : Int) ++ (B " " ++ (intDec (o : Int) ++ B " 0 R"))) := sprintfB_of_render _ _ _ rfl
  rw [e, refLine_text, show B "/CS" = B "/" ++ B "CS" from rfl, intDec_ofNat]; unfold refLine; simp only [List.append_assoc]
theorem f_line (i : Bytes) (o : Nat) : sprintf "/F%s %d 0 R" [.s i, .d o] ++ [10] = refLine (B "F" ++ i, o) := by
  have e : sprintf "/F%s %d 0 R" [.s i, .d o] = B "/F" ++ (i ++ (B " " ++ (intDec (o : Int) ++ B " 0 R"))) := sprintfB_of_render _ _ _ rfl
  rw [e, refLine_text, show B "/F" = B "/" ++ B "F" from rfl]; unfold refLine; simp only [List.append_assoc]
theorem i_line (i : Bytes) (o : Nat) : sprintf "/I%s %d 0 R" [.s i, .d o] ++ [10] = refLine (B "I" ++ i, o) := by
  have e : sprintf "/I%s %d 0 R" [.s i, .d o] = B "/I" ++ (i ++ (B " " ++ (intDec (o : Int) ++ B " 0 R"))) := sprintfB_of_render _ _ _ rfl
  rw [e, refLine_text, show B "/I" = B "/" ++ B "I" from rfl]; unfold refLine; simp only [List.append_assoc]
theorem t_line (i : Bytes) (o : Nat) : sprintf "/TPL%s %d 0 R" [.s i, .d o] ++ [10] = refLine (B "TPL" ++ i, o) := by
  have e : sprintf "/TPL%s %d 0 R" [.s i, .d o] = B "/TPL" ++ (i ++ (B " " ++ (intDec (o : Int) ++ B " 0 R"))) := sprintfB_of_render _ _ _ rfl
  rw [e, refLine_text, show B "/TPL" = B "/" ++ B "TPL" from rfl]; unfold refLine; simp only [List.append_assoc]

/-- The entry of a font, an image, a template and a spot colour. -/
def fontEnt (f : Fpdf) (k : Bytes) : Option (Bytes × Nat) := (lookup k f.t.fonts).map fun d => (B "F" ++ d.i, d.n)
@[inherit_doc fontEnt] def imgEnt (f : Fpdf) (k : Bytes) : Option (Bytes × Nat) := ((lookup k f.r.images).bind (f.r.imgHeap[·]?)).map fun d => (B "I" ++ d.i, d.n)
@[inherit_doc fontEnt] def tplEnt (E : Ext) (f : Fpdf) (k : Bytes) : Option (Bytes × Nat) :=
  (lookup k f.r.templates).bind fun t => (lookup (t.id E) f.r.templateObjects).map fun o => (B "TPL" ++ t.id E, o)
@[inherit_doc fontEnt] def spotEnt (f : Fpdf) (k : Bytes) : Option (Bytes × Nat) := (lookup k f.r.spotColorMap).map fun c => (B "CS" ++ natDec c.id, c.objID)

theorem ap_line {g : Fpdf} (hs : g.state = 1) {s b : Bytes} (h : s ++ [10] = b) : Ap g (g.out s) b := by
  have := (Ap.refl g).out hs s
  rw [List.nil_append, h] at this
  exact this

/-- A section `/cat <<` … `>>`. -/
def sect (cat : Bytes) (entries : List (Bytes × Nat)) : Bytes := B "/" ++ cat ++ B " <<\n" ++ entries.flatMap refLine ++ B ">>\n"

theorem sect_ap {f g h : Fpdf} {b : Bytes} {cat : Bytes} {es : List (Bytes × Nat)} (hs : f.state = 1) (h1 : Ap f g b) (s : String) (hb : B s ++ [10] = B "/" ++ cat ++ B " <<\n")
    (h2 : Ap (g.outs s) h (es.flatMap refLine)) : Ap f (h.outs ">>") (b ++ sect cat es) := by
  have h3 := ((h1.out hs (B s)).trans h2).out hs (B ">>")
  rw [hb] at h3
  have e : b ++ (B "/" ++ cat ++ B " <<\n") ++ es.flatMap refLine ++ (B ">>" ++ [10]) = b ++ sect cat es := by
    unfold sect
    rw [show B ">>\n" = B ">>" ++ [10] from rfl]
    simp only [List.append_assoc]
  rw [e] at h3
  exact h3

theorem optSect_ap {f g h : Fpdf} {b : Bytes} {cat : Bytes} {es : List (Bytes × Nat)} {c : Prop} [Decidable c] (hs : f.state = 1) (h1 : Ap f g b) (s : String)
    (hb : B s ++ [10] = B "/" ++ cat ++ B " <<\n") (h2 : Ap (g.outs s) h (es.flatMap refLine)) :
    Ap f (if c then h.outs ">>" else g) (b ++ if c then sect cat es else []) := by
  split
  · exact sect_ap hs h1 s hb h2
  · rw [List.append_nil]; exact h1

theorem font_ap (E : Ext) (f : Fpdf) (ks : List Bytes) (g : Fpdf) (h1 : g.t = f.t) (h2 : g.r = f.r) (h3 : g.state = 1) :
    Ap g (ks.foldl (fun f k => match lookup k f.t.fonts with | some font => f.outf "/F%s %d 0 R" [.s font.i, .d font.n] | none => f) g) ((ks.filterMap (fontEnt f)).flatMap refLine) := by
  refine keyed_ap _ _ ?_ ks g h1 h2 h3
  intro g k a b c
  unfold fontEnt
  rw [a]
  cases lookup k f.t.fonts with
  | none => exact Ap.refl g
  | some d => exact ap_line c (f_line _ _)

theorem img_ap (E : Ext) (f : Fpdf) (ks : List Bytes) (g : Fpdf) (h1 : g.t = f.t) (h2 : g.r = f.r) (h3 : g.state = 1) :
    Ap g (ks.foldl (fun f k => match (lookup k f.r.images).bind (f.r.imgHeap[·]?) with | some im => f.outf "/I%s %d 0 R" [.s im.i, .d im.n] | none => f) g) ((ks.filterMap (imgEnt f)).flatMap refLine) := by
  refine keyed_ap _ _ ?_ ks g h1 h2 h3
  intro g k a b c
  unfold imgEnt
  rw [b]
  cases (lookup k f.r.images).bind (f.r.imgHeap[·]?) with
  | none => exact Ap.refl g
  | some d => exact ap_line c (i_line _ _)

theorem tpl_ap (E : Ext) (f : Fpdf) (ks : List Bytes) (g : Fpdf) (h1 : g.t = f.t) (h2 : g.r = f.r) (h3 : g.state = 1) :
    Ap g (ks.foldl (fun f k => match lookup k f.r.templates with
      | some t =>
        match lookup (t.id E) f.r.templateObjects with
        | some o => f.outf "/TPL%s %d 0 R" [.s (t.id E), .d o]
        | none => f
      | none => f) g) ((ks.filterMap (tplEnt E f)).flatMap refLine) := by
  refine keyed_ap _ _ ?_ ks g h1 h2 h3
  intro g k a b c
  unfold tplEnt
  rw [b]
  cases lookup k f.r.templates with
  | none => exact Ap.refl g
  | some t =>
    dsimp only [Option.bind]
    cases lookup (t.id E) f.r.templateObjects with
    | none => exact Ap.refl g
    | some d => exact ap_line c (t_line _ _)

theorem spot_ap (E : Ext) (f : Fpdf) (ks : List Bytes) (g : Fpdf) (h1 : g.t = f.t) (h2 : g.r = f.r) (h3 : g.state = 1) :
    Ap g (ks.foldl (fun f k => match lookup k f.r.spotColorMap with | some c => f.outf "/CS%d %d 0 R" [.d c.id, .d c.objID] | none => f) g) ((ks.filterMap (spotEnt f)).flatMap refLine) := by
  refine keyed_ap _ _ ?_ ks g h1 h2 h3
  intro g k a b c
  unfold spotEnt
  rw [b]
  cases lookup k f.r.spotColorMap with
  | none => exact Ap.refl g
  | some d => exact ap_line c (cs_line _ _)

theorem putxobjectdict_ap (E : Ext) (f g : Fpdf) (h1 : g.t = f.t) (h2 : g.r = f.r) (h3 : g.state = 1) : ∃ is ts : List Bytes,
    (∀ k, k ∈ is ↔ k ∈ keys f.r.images) ∧ (∀ k, k ∈ ts ↔ k ∈ keys f.r.templates) ∧
    Ap g (g.putxobjectdict E) ((is.filterMap (imgEnt f) ++ ts.filterMap (tplEnt E f)).flatMap refLine) := by
  have key : ∀ is : List Bytes, ∃ ts : List Bytes, (∀ k, k ∈ ts ↔ k ∈ keys f.r.templates) ∧
      Ap g (let f := is.foldl (fun f k => match (lookup k f.r.images).bind (f.r.imgHeap[·]?) with | some im => f.outf "/I%s %d 0 R" [.s im.i, .d im.n] | none => f) g
        (visit E f.m.catalogSort 11 (keys f.r.templates) bytesLe).foldl (fun f k =>
          match lookup k f.r.templates with
          | some t =>
            match lookup (t.id E) f.r.templateObjects with
            | some o => f.outf "/TPL%s %d 0 R" [.s (t.id E), .d o]
            | none => f
          | none => f) f) ((is.filterMap (imgEnt f) ++ ts.filterMap (tplEnt E f)).flatMap refLine) := by
    intro is
    dsimp only
    have q := img_ap E f is g h1 h2 h3
    generalize List.foldl _ g is = g3 at q ⊢
    refine ⟨visit E g3.m.catalogSort 11 (keys g3.r.templates) bytesLe, fun k => by rw [q.r, h2]; exact visit_iff _ _ _ _ _ _, ?_⟩
    rw [List.flatMap_append]
    exact q.trans (tpl_ap E f _ g3 (q.t.trans h1) (q.r.trans h2) (q.state.trans h3))
  have hv : ∀ (b : Bool) le k, k ∈ visit E b 10 (keys g.r.images) le ↔ k ∈ keys f.r.images := fun b le k => by rw [h2]; exact visit_iff _ _ _ _ _ _
  unfold Fpdf.putxobjectdict
  obtain ⟨ts, hts, hap⟩ := key (visit E g.m.catalogSort 10 (keys g.r.images) (fun a b => bytesLe ((((lookup a g.r.images).bind (g.r.imgHeap[·]?)).getD {}).i) ((((lookup b g.r.images).bind (g.r.imgHeap[·]?)).getD {}).i)))
  exact ⟨_, ts, hv _ _, hts, hap⟩

theorem fontsect_ap (E : Ext) (f g : Fpdf) (h1 : g.t = f.t) (h2 : g.r = f.r) (h3 : g.state = 1) (le : Bytes → Bytes → Bool) : ∃ fs : List Bytes, (∀ k, k ∈ fs ↔ k ∈ keys f.t.fonts) ∧
    Ap g ((visit E g.m.catalogSort 13 (keys g.t.fonts) le).foldl (fun f k =>
      match lookup k f.t.fonts with
      | some font => f.outf "/F%s %d 0 R" [.s font.i, .d font.n]
      | none => f) g) ((fs.filterMap (fontEnt f)).flatMap refLine) :=
  ⟨_, fun k => by rw [h1]; exact visit_iff _ _ _ _ _ _, font_ap E f _ g h1 h2 h3⟩

theorem spotsect_ap (E : Ext) {f g : Fpdf} {b : Bytes} (hs : f.state = 1) (h : Ap f g b) : ∃ ss : List Bytes, (∀ k, k ∈ ss ↔ k ∈ keys f.r.spotColorMap) ∧
    Ap f (g.spotColorPutResourceDict E) (b ++ sect (B "ColorSpace") (ss.filterMap (spotEnt f))) := by
  have q4 := h.out hs (B "/ColorSpace <<")
  change Ap f (g.outs "/ColorSpace <<") _ at q4
  unfold Fpdf.spotColorPutResourceDict
  dsimp only
  refine ⟨E.ord 12 (keys (g.outs "/ColorSpace <<").r.spotColorMap), fun k => by rw [q4.r]; exact (E.ord_perm _ _).mem_iff, ?_⟩
  exact sect_ap hs h "/ColorSpace <<" (cat := B "ColorSpace") rfl (spot_ap E f (E.ord 12 (keys (g.outs "/ColorSpace <<").r.spotColorMap)) _ q4.t q4.r (q4.state.trans hs))

/-- The blend modes, gradients and layers. -/
theorem numsects_ap {f g4 : Fpdf} {b : Bytes} (hs : f.state = 1) (h5 : Ap f g4 b) :
    Ap f g4.putNumberedNames
      (b ++ (if f.r.blendList.length > 0 then sect (B "ExtGState") (numEntries (B "GS") 1 (f.r.blendList.map (·.objNum))) else []) ++
      (if f.r.gradientList.length > 0 then sect (B "Shading") (numEntries (B "Sh") 1 (f.r.gradientList.map (·.objNum))) else []) ++
      (if f.layer.list.length > 0 then sect (B "Properties") (numEntries (B "OC") 0 (f.layer.list.map (·.objNum))) else [])) := by
  unfold Fpdf.putNumberedNames
  dsimp only
  have q1 := h5.out hs (B "/ExtGState <<")
  change Ap f (g4.outs "/ExtGState <<") _ at q1
  have h6 := optSect_ap (c := g4.r.blendList.length > 0) hs h5 "/ExtGState <<" (cat := B "ExtGState") rfl
    (numbered_ap "/GS%d %d 0 R" (B "GS") gs_line (g4.r.blendList.map (·.objNum)) 1 _ (q1.state.trans hs))
  generalize (if g4.r.blendList.length > 0 then Fpdf.outs (Fpdf.putNumbered "/GS%d %d 0 R" 1 (g4.r.blendList.map (·.objNum)) (g4.outs "/ExtGState <<")) ">>" else g4) = g5 at h6 ⊢
  rw [h5.r] at h6
  have q2 := h6.out hs (B "/Shading <<")
  change Ap f (g5.outs "/Shading <<") _ at q2
  have h7 := optSect_ap (c := g5.r.gradientList.length > 0) hs h6 "/Shading <<" (cat := B "Shading") rfl
    (numbered_ap "/Sh%d %d 0 R" (B "Sh") sh_line (g5.r.gradientList.map (·.objNum)) 1 _ (q2.state.trans hs))
  generalize (if g5.r.gradientList.length > 0 then Fpdf.outs (Fpdf.putNumbered "/Sh%d %d 0 R" 1 (g5.r.gradientList.map (·.objNum)) (g5.outs "/Shading <<")) ">>" else g5) = g6 at h7 ⊢
  rw [h6.r] at h7
  have q3 := h7.out hs (B "/Properties <<")
  change Ap f (g6.outs "/Properties <<") _ at q3
  have h8 := optSect_ap (c := g6.layer.list.length > 0) hs h7 "/Properties <<" (cat := B "Properties") rfl
    (numbered_ap "/OC%d %d 0 R" (B "OC") oc_line (g6.layer.list.map (·.objNum)) 0 _ (q3.state.trans hs))
  rw [h7.layer] at h8 ⊢
  exact h8

theorem procset_ap (f : Fpdf) (hs : f.state = 1) : Ap f (f.outs "/ProcSet [/PDF /Text /ImageB /ImageC /ImageI]") (B "/ProcSet [/PDF /Text /ImageB /ImageC /ImageI]\n") := ap_line hs rfl

/-- The resource dictionary. -/
def dictText (E : Ext) (f : Fpdf) (fs is ts ss : List Bytes) : Bytes :=
  B "/ProcSet [/PDF /Text /ImageB /ImageC /ImageI]\n" ++ sect (B "Font") (fs.filterMap (fontEnt f)) ++
      sect (B "XObject") (is.filterMap (imgEnt f) ++ ts.filterMap (tplEnt E f)) ++
      (if f.r.blendList.length > 0 then sect (B "ExtGState") (numEntries (B "GS") 1 (f.r.blendList.map (·.objNum))) else []) ++
      (if f.r.gradientList.length > 0 then sect (B "Shading") (numEntries (B "Sh") 1 (f.r.gradientList.map (·.objNum))) else []) ++
      (if f.layer.list.length > 0 then sect (B "Properties") (numEntries (B "OC") 0 (f.layer.list.map (·.objNum))) else []) ++
      sect (B "ColorSpace") (ss.filterMap (spotEnt f))

theorem putresourcedict_ap (E : Ext) (f : Fpdf) (hs : f.state = 1) : ∃ fs is ts ss : List Bytes,
    (∀ k, k ∈ fs ↔ k ∈ keys f.t.fonts) ∧ (∀ k, k ∈ is ↔ k ∈ keys f.r.images) ∧ (∀ k, k ∈ ts ↔ k ∈ keys f.r.templates) ∧ (∀ k, k ∈ ss ↔ k ∈ keys f.r.spotColorMap) ∧
    Ap f (f.putresourcedict E) (dictText E f fs is ts ss) := by
  unfold Fpdf.putresourcedict dictText
  dsimp only
  have h1 := procset_ap f hs
  generalize f.outs "/ProcSet [/PDF /Text /ImageB /ImageC /ImageI]" = g1 at h1 ⊢
  generalize B "/ProcSet [/PDF /Text /ImageB /ImageC /ImageI]\n" = b1 at h1 ⊢
  have h1' := h1.out hs (B "/Font <<")
  change Ap f (g1.outs "/Font <<") _ at h1'
  obtain ⟨fs, hfs, h2⟩ := fontsect_ap E f (g1.outs "/Font <<") h1'.t h1'.r (h1'.state.trans hs) (fun a b => bytesLe (((lookup a (g1.outs "/Font <<").t.fonts).getD {}).i) (((lookup b (g1.outs "/Font <<").t.fonts).getD {}).i))
  change Ap (g1.outs "/Font <<") (Fpdf.putFontNames E (g1.outs "/Font <<")) _ at h2
  have h3 := sect_ap hs h1 "/Font <<" (cat := B "Font") rfl h2
  generalize Fpdf.outs (Fpdf.putFontNames E (g1.outs "/Font <<")) ">>" = g2 at h3 ⊢
  have h2' := h3.out hs (B "/XObject <<")
  change Ap f (g2.outs "/XObject <<") _ at h2'
  obtain ⟨is, ts, his, hts, h4⟩ := putxobjectdict_ap E f _ h2'.t h2'.r (h2'.state.trans hs)
  have h5 := sect_ap hs h3 "/XObject <<" (cat := B "XObject") rfl h4
  generalize Fpdf.outs (Fpdf.putxobjectdict E (g2.outs "/XObject <<")) ">>" = g4 at h5 ⊢
  have h5' := numsects_ap hs h5
  change Ap f (g4.putNumberedNames) _ at h5'
  obtain ⟨ss, hss, h6⟩ := spotsect_ap E hs h5'
  exact ⟨fs, is, ts, ss, hfs, his, hts, hss, h6⟩

end Verif.Proof
