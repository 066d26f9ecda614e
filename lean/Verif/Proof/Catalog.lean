import Verif.Proof.OutlineObjs
/-
The texts of the catalog, the information dictionary, the document script, the metadata and the encryption dictionary.
-/
namespace Verif.Proof
open Verif Verif.Model Verif.Spec

/-- A string written into an object. -/
theorem textstring_plain (md5 : Bytes → Bytes) (f : Fpdf) (s : Bytes) :
    ∃ c, (f.textstring md5 s).2 = textstringPlain c ∧ Out f (f.textstring md5 s).1 [] ∧ (f.m.protect.encrypted = false → c = s) ∧
      (f.m.protect.rc4n < f.n → Holds md5 f.m.protect f.n s c) := by
  by_cases hr : f.m.protect.rc4n < f.n
  · obtain ⟨c, h1, h2, h3⟩ := textstring_holds md5 f s hr
    refine ⟨c, h1, h2, fun he => ?_, fun _ => h3⟩
    unfold Holds at h3
    rw [he] at h3
    exact h3
  · unfold Fpdf.textstring
    by_cases he : f.m.protect.encrypted = true
    · rw [if_pos he]
      dsimp only
      exact ⟨_, rfl, ⟨by simp, ofix_protect f _ (rc4_fix _ _ _ _), rc4_ok _ _ _⟩, ⟨fun h => (by rw [he] at h; cases h), fun h => absurd h hr⟩⟩
    · rw [if_neg he]
      exact ⟨s, rfl, Out.refl f, fun _ => rfl, fun h => absurd h hr⟩

theorem Out.enc {f g : Fpdf} {b : Bytes} (h : Out f g b) : g.m.protect.encrypted = f.m.protect.encrypted := by
  have := congrArg (fun x : Fpdf => x.m.protect.encrypted) h.fix; exact this
theorem Out.title {f g : Fpdf} {b : Bytes} (h : Out f g b) : (g.m.producer, g.m.title, g.m.subject, g.m.author, g.m.keywords, g.m.creator) =
    (f.m.producer, f.m.title, f.m.subject, f.m.author, f.m.keywords, f.m.creator) := by
  have := congrArg (fun x : Fpdf => (x.m.producer, x.m.title, x.m.subject, x.m.author, x.m.keywords, x.m.creator)) h.fix; exact this

/-! ### The information dictionary -/

/-- The lines of an information dictionary: the keys of `es` with the strings `cs`. -/
def infoLines (es : List (Bytes × Bytes)) (cs : List Bytes) : Bytes := (es.zip cs).flatMap fun x => x.1.1 ++ textstringPlain x.2 ++ [10]

/-- Entries written so far. -/
structure InfoOut (md5 : Bytes → Bytes) (f g : Fpdf) (es : List (Bytes × Bytes)) (cs : List Bytes) : Prop where
  len : cs.length = es.length
  out : Out f g (infoLines es cs)
  plain : f.m.protect.encrypted = false → cs = es.map Prod.snd
  fresh : es = [] → g = f
  first : f.m.protect.rc4n < f.n → ∀ e c, es.head? = some e → cs.head? = some c → Holds md5 f.m.protect f.n e.2 c

theorem InfoOut.nil (md5 : Bytes → Bytes) (f : Fpdf) : InfoOut md5 f f [] [] :=
  ⟨rfl, Out.refl f, fun _ => rfl, fun _ => rfl, fun _ e c h => by simp at h⟩

theorem InfoOut.snoc {E : Ext} {f g : Fpdf} {es : List (Bytes × Bytes)} (hs : f.state = 1) (h : ∃ cs, InfoOut E.md5 f g es cs) (key : String) (v : Bytes) :
    ∃ cs, InfoOut E.md5 f (g.putInfoEntry E key v) (es ++ [(B key, v)]) cs := by
  obtain ⟨cs, h⟩ := h
  obtain ⟨c, h1, h2, h3, h4⟩ := textstring_plain E.md5 g v
  refine ⟨cs ++ [c], ⟨by simp [h.len], ?_, ?_, ?_, ?_⟩⟩
  · unfold Fpdf.putInfoEntry
    dsimp only
    rw [h1]
    have := (h.out.trans h2).o hs (B key ++ textstringPlain c)
    have e : infoLines (es ++ [(B key, v)]) (cs ++ [c]) = infoLines es cs ++ [] ++ (B key ++ textstringPlain c ++ [10]) := by
      unfold infoLines
      rw [List.zip_append h.len.symm, List.flatMap_append]
      simp
    rw [e]
    exact this
  · intro he
    rw [h.plain he, h3 (h.out.enc.trans he)]
    simp
  · intro h0; simp at h0
  · intro hr e c' he hc
    cases es with
    | nil =>
      have hcs : cs = [] := List.eq_nil_of_length_eq_zero h.len
      subst hcs
      have hg := h.fresh rfl
      subst hg
      simp at he hc
      subst he hc
      exact h4 hr
    | cons a es =>
      cases cs with
      | nil => have := h.len; simp at this
      | cons b cs => exact h.first hr e c' (by simpa using he) (by simpa using hc)

theorem InfoOut.opt {E : Ext} {f g : Fpdf} {es : List (Bytes × Bytes)} (hs : f.state = 1) (h : ∃ cs, InfoOut E.md5 f g es cs) (key : String) (v : Bytes) :
    ∃ cs, InfoOut E.md5 f (if v ≠ [] then g.putInfoEntry E key v else g) (es ++ if v ≠ [] then [(B key, v)] else []) cs := by
  by_cases hv : v ≠ []
  · rw [if_pos hv, if_pos hv]; exact InfoOut.snoc hs h key v
  · rw [if_neg hv, if_neg hv, List.append_nil]; exact h

/-- The entries of the information dictionary, `/repo/fpdf.go:4625-4648`. -/
def infoEntries (m : MetaSt) (creation modified : Bytes) : List (Bytes × Bytes) :=
  ([(B "/Producer ", m.producer), (B "/Title ", m.title), (B "/Subject ", m.subject), (B "/Author ", m.author), (B "/Keywords ", m.keywords),
    (B "/Creator ", m.creator)].filter fun e => e.2 ≠ []) ++ [(B "/CreationDate ", B "D:" ++ creation), (B "/ModDate ", B "D:" ++ modified)]

theorem infoEntries_eq (m : MetaSt) (a b : Bytes) : infoEntries m a b =
    [] ++ (if m.producer ≠ [] then [(B "/Producer ", m.producer)] else []) ++ (if m.title ≠ [] then [(B "/Title ", m.title)] else []) ++
      (if m.subject ≠ [] then [(B "/Subject ", m.subject)] else []) ++ (if m.author ≠ [] then [(B "/Author ", m.author)] else []) ++
      (if m.keywords ≠ [] then [(B "/Keywords ", m.keywords)] else []) ++ (if m.creator ≠ [] then [(B "/Creator ", m.creator)] else []) ++
      [(B "/CreationDate ", B "D:" ++ a)] ++ [(B "/ModDate ", B "D:" ++ b)] := by
  unfold infoEntries
  simp only [List.filter_cons, List.filter_nil, decide_eq_true_eq]
  split <;> split <;> split <;> split <;> split <;> split <;> simp_all

/-- What `putinfo` writes. -/
def InfoText (E : Ext) (f : Fpdf) (i : Bytes) : Prop :=
  ∃ cs, cs.length = (infoEntries f.m E.creation E.modified).length ∧ i = infoLines (infoEntries f.m E.creation E.modified) cs ∧
    (f.m.protect.encrypted = false → cs = (infoEntries f.m E.creation E.modified).map Prod.snd) ∧
    ∀ e c, (infoEntries f.m E.creation E.modified).head? = some e → cs.head? = some c → Holds E.md5 f.m.protect (f.n + 1) e.2 c

theorem putinfo_text (E : Ext) (f : Fpdf) (hs : f.state = 1) (hr : f.m.protect.rc4n ≤ f.n) : ∃ i, W f (f.putinfo E) [.plain (B "<<\n" ++ i ++ B ">>\n")] ∧ InfoText E f i := by
  have hs1 : f.newobj.state = 1 := (newobj_state f).trans hs
  have hn1 := (newobj_spec f hs).2.1
  have hp := newobj_protect f
  have hm := (newobj_keeps f).2.2.2
  unfold Fpdf.putinfo
  dsimp only
  have h0 := (Out.refl f.newobj).o hs1 (B "<<")
  have hs2 : (f.newobj.outs "<<").state = 1 := h0.state.trans hs1
  have hm2 : (f.newobj.outs "<<").m = f.m := by
    rw [← hm]; unfold Fpdf.outs Fpdf.out; split <;> rfl
  have hn2 : (f.newobj.outs "<<").n = f.n + 1 := h0.n.trans hn1
  change Out f.newobj (f.newobj.outs "<<") _ at h0
  generalize f.newobj.outs "<<" = g0 at h0 hs2 hm2 hn2 ⊢
  have key : ∀ {g : Fpdf} {es}, (∃ cs, InfoOut E.md5 g0 g es cs) → (g.m.producer, g.m.title, g.m.subject, g.m.author, g.m.keywords, g.m.creator) =
    (f.m.producer, f.m.title, f.m.subject, f.m.author, f.m.keywords, f.m.creator) := by
    intro g es h
    obtain ⟨cs, h⟩ := h
    rw [← hm2]
    exact h.out.title
  have a0 : ∃ cs, InfoOut E.md5 g0 g0 [] cs := ⟨_, InfoOut.nil E.md5 g0⟩
  have k0 := key a0
  simp only [Prod.mk.injEq] at k0
  rw [k0.1]
  have a1 := InfoOut.opt hs2 a0 "/Producer " f.m.producer
  generalize (if f.m.producer ≠ [] then g0.putInfoEntry E "/Producer " f.m.producer else g0) = g1 at a1 ⊢
  have k1 := key a1
  simp only [Prod.mk.injEq] at k1
  rw [k1.2.1]
  have a2 := InfoOut.opt hs2 a1 "/Title " f.m.title
  generalize (if f.m.title ≠ [] then g1.putInfoEntry E "/Title " f.m.title else g1) = g2 at a2 ⊢
  have k2 := key a2
  simp only [Prod.mk.injEq] at k2
  rw [k2.2.2.1]
  have a3 := InfoOut.opt hs2 a2 "/Subject " f.m.subject
  generalize (if f.m.subject ≠ [] then g2.putInfoEntry E "/Subject " f.m.subject else g2) = g3 at a3 ⊢
  have k3 := key a3
  simp only [Prod.mk.injEq] at k3
  rw [k3.2.2.2.1]
  have a4 := InfoOut.opt hs2 a3 "/Author " f.m.author
  generalize (if f.m.author ≠ [] then g3.putInfoEntry E "/Author " f.m.author else g3) = g4 at a4 ⊢
  have k4 := key a4
  simp only [Prod.mk.injEq] at k4
  rw [k4.2.2.2.2.1]
  have a5 := InfoOut.opt hs2 a4 "/Keywords " f.m.keywords
  generalize (if f.m.keywords ≠ [] then g4.putInfoEntry E "/Keywords " f.m.keywords else g4) = g5 at a5 ⊢
  have k5 := key a5
  simp only [Prod.mk.injEq] at k5
  rw [k5.2.2.2.2.2]
  have a6 := InfoOut.opt hs2 a5 "/Creator " f.m.creator
  generalize (if f.m.creator ≠ [] then g5.putInfoEntry E "/Creator " f.m.creator else g5) = g6 at a6 ⊢
  have a7 := InfoOut.snoc hs2 a6 "/CreationDate " (B "D:" ++ E.creation)
  have a8 := InfoOut.snoc hs2 a7 "/ModDate " (B "D:" ++ E.modified)
  rw [← infoEntries_eq] at a8
  generalize (g6.putInfoEntry E "/CreationDate " (B "D:" ++ E.creation)).putInfoEntry E "/ModDate " (B "D:" ++ E.modified) = g8 at a8 ⊢
  obtain ⟨cs, h⟩ := a8
  have h3 := (h0.trans h.out).o hs1 (B ">>")
  refine ⟨_, W.plainEq hs h3, cs, h.len, rfl, ?_, ?_⟩
  · intro he; exact h.plain (by rw [hm2]; exact he)
  · intro e c he hc
    have := h.first (by rw [hm2, hn2]; omega) e c he hc
    rw [hm2, hn2] at this
    exact this

/-! ### The catalog -/

/-- The document without what writing the catalog can change. -/
def catfix (f : Fpdf) : Fpdf := { ofix f with m.pdfVersion := 0 }

/-- `b` was written; the version may have been raised. -/
structure Cat (f g : Fpdf) (b : Bytes) : Prop where
  buf : g.buffer = f.buffer ++ b
  fix : catfix g = catfix f
  rc : RcOk f g

theorem Cat.refl (f : Fpdf) : Cat f f [] := ⟨by simp, rfl, id⟩
theorem Cat.trans {f g h : Fpdf} {a b : Bytes} (h1 : Cat f g a) (h2 : Cat g h b) : Cat f h (a ++ b) :=
  ⟨by rw [h2.buf, h1.buf, List.append_assoc], h2.fix.trans h1.fix, fun h => h2.rc (h1.rc h)⟩
theorem Cat.of {f g : Fpdf} {b : Bytes} (h : Out f g b) : Cat f g b := ⟨h.buf, by unfold catfix; rw [h.fix], h.rc⟩
theorem Cat.state {f g : Fpdf} {b : Bytes} (h : Cat f g b) : g.state = f.state := by
  have := congrArg (fun x : Fpdf => x.state) h.fix; exact this
theorem Cat.n {f g : Fpdf} {b : Bytes} (h : Cat f g b) : g.n = f.n := by
  have := congrArg (fun x : Fpdf => x.n) h.fix; exact this
theorem Cat.offsets {f g : Fpdf} {b : Bytes} (h : Cat f g b) : g.offsets = f.offsets := by
  have := congrArg (fun x : Fpdf => x.offsets) h.fix; exact this
theorem Cat.layer {f g : Fpdf} {b : Bytes} (h : Cat f g b) : g.layer = f.layer := by
  have := congrArg (fun x : Fpdf => x.layer) h.fix; exact this
theorem Cat.l {f g : Fpdf} {b : Bytes} (h : Cat f g b) : g.l = f.l := by
  have := congrArg (fun x : Fpdf => x.l) h.fix; exact this
theorem Cat.m {f g : Fpdf} {b : Bytes} (h : Cat f g b) : (g.m.zoomMode, g.m.layoutMode, g.m.outlineRoot, g.m.javascript, g.m.nJs) =
    (f.m.zoomMode, f.m.layoutMode, f.m.outlineRoot, f.m.javascript, f.m.nJs) := by
  have := congrArg (fun x : Fpdf => (x.m.zoomMode, x.m.layoutMode, x.m.outlineRoot, x.m.javascript, x.m.nJs)) h.fix; exact this
theorem Cat.o {f g : Fpdf} {b : Bytes} (h : Cat f g b) (hs : f.state = 1) (s : Bytes) : Cat f (g.out s) (b ++ (s ++ [10])) :=
  h.trans (Cat.of (Out.out (h.state.trans hs) s))

/-- The entry for the zoom mode, `/repo/fpdf.go:4653-4660`. -/
def zoomText (z : Bytes) : Bytes :=
  if z = B "fullpage" then B "/OpenAction [3 0 R /Fit]\n"
  else if z = B "fullwidth" then B "/OpenAction [3 0 R /FitH null]\n"
  else if z = B "real" then B "/OpenAction [3 0 R /XYZ null null 1]\n"
  else []

/-- The name of the page layout for a layout mode, `/repo/fpdf.go:4663-4677`. -/
def layoutName (m : Bytes) : Option Bytes :=
  if m = B "single" ∨ m = B "SinglePage" then some (B "SinglePage")
  else if m = B "continuous" ∨ m = B "OneColumn" then some (B "OneColumn")
  else if m = B "two" ∨ m = B "TwoColumnLeft" then some (B "TwoColumnLeft")
  else if m = B "TwoColumnRight" then some (B "TwoColumnRight")
  else if m = B "TwoPageLeft" ∨ m = B "TwoPageRight" then some m
  else none

/-- The entry for the layout mode. -/
def layoutText (m : Bytes) : Bytes :=
  match layoutName m with
  | some n => B "/PageLayout /" ++ n ++ [10]
  | none => []

/-- The entry for the outline. -/
def outlinesText (f : Fpdf) : Bytes :=
  if f.l.outlines.length > 0 then B "/Outlines " ++ natDec f.m.outlineRoot ++ B " 0 R\n/PageMode /UseOutlines\n" else []

/-- References to objects. -/
def refs (l : List Nat) : Bytes := l.flatMap fun n => natDec n ++ B " 0 R "

/-- The entry for the layers, `/repo/layer.go:107-122`. -/
def layersText (f : Fpdf) : Bytes :=
  if f.layer.list.length > 0 then
    B "/OCProperties <</OCGs [" ++ refs (f.layer.list.map (·.objNum)) ++ B "] /D <</OFF [" ++ refs ((f.layer.list.filter (fun l => !l.visible)).map (·.objNum)) ++ B "] /Order [" ++
      refs (f.layer.list.map (·.objNum)) ++ B "]>>>>\n" ++ if f.layer.openLayerPane then B "/PageMode /UseOC\n" else []
  else []

/-- The entry for the script. -/
def scriptText (f : Fpdf) : Bytes := if f.m.javascript.isSome then B "/JavaScript " ++ natDec f.m.nJs ++ B " 0 R\n" else []

/-- The catalog after its first three lines. -/
def catalogText (f : Fpdf) : Bytes :=
  zoomText f.m.zoomMode ++ layoutText f.m.layoutMode ++ outlinesText f ++ layersText f ++ B "/Names <<\n" ++ scriptText f ++ (B "/EmbeddedFiles " ++ f.embeddedFiles ++ [10]) ++ B ">>\n>>\n"

theorem putZoom_cat (f : Fpdf) (hs : f.state = 1) : Cat f f.putZoom (zoomText f.m.zoomMode) := by
  unfold Fpdf.putZoom zoomText
  repeat' split
  · exact Cat.of (Out.out hs (B "/OpenAction [3 0 R /Fit]"))
  · exact Cat.of (Out.out hs (B "/OpenAction [3 0 R /FitH null]"))
  · exact Cat.of (Out.out hs (B "/OpenAction [3 0 R /XYZ null null 1]"))
  · exact Cat.refl f

theorem putLayout_cat (f : Fpdf) (hs : f.state = 1) : Cat f f.putLayout (layoutText f.m.layoutMode) := by
  unfold Fpdf.putLayout layoutText layoutName
  dsimp only
  by_cases h1 : f.m.layoutMode = B "single" ∨ f.m.layoutMode = B "SinglePage"
  · rw [if_pos h1, if_pos h1]; exact Cat.of (Out.out hs (B "/PageLayout /SinglePage"))
  rw [if_neg h1, if_neg h1]
  by_cases h2 : f.m.layoutMode = B "continuous" ∨ f.m.layoutMode = B "OneColumn"
  · rw [if_pos h2, if_pos h2]; exact Cat.of (Out.out hs (B "/PageLayout /OneColumn"))
  rw [if_neg h2, if_neg h2]
  by_cases h3 : f.m.layoutMode = B "two" ∨ f.m.layoutMode = B "TwoColumnLeft"
  · rw [if_pos h3, if_pos h3]; exact Cat.of (Out.out hs (B "/PageLayout /TwoColumnLeft"))
  rw [if_neg h3, if_neg h3]
  by_cases h4 : f.m.layoutMode = B "TwoColumnRight"
  · rw [if_pos h4, if_pos h4]; exact Cat.of (Out.out hs (B "/PageLayout /TwoColumnRight"))
  rw [if_neg h4, if_neg h4]
  by_cases h5 : f.m.layoutMode = B "TwoPageLeft" ∨ f.m.layoutMode = B "TwoPageRight"
  · rw [if_pos h5, if_pos h5]
    have hc : Cat f (if f.m.pdfVersion < 5 then { f with m.pdfVersion := 5 } else f) [] := by
      split
      · exact ⟨by simp, rfl, id⟩
      · exact Cat.refl f
    generalize (if f.m.pdfVersion < 5 then { f with m.pdfVersion := 5 } else f) = g at hc ⊢
    exact hc.o hs (B "/PageLayout /" ++ f.m.layoutMode)
  · rw [if_neg h5, if_neg h5]; exact Cat.refl f

theorem refs_map (l : List Layer) : (l.flatMap fun x => sprintf "%d 0 R " [.d x.objNum]) = refs (l.map (·.objNum)) := by
  unfold refs
  rw [List.flatMap_map]
  have e : (fun x : Layer => sprintf "%d 0 R " [.d (x.objNum : Int)]) = fun x => natDec x.objNum ++ B " 0 R " := by
    funext x
    have : sprintf "%d 0 R " [.d (x.objNum : Int)] = intDec x.objNum ++ B " 0 R " := sprintfB_of_render _ _ _ rfl
    rw [this, intDec_ofNat]
  rw [e]

theorem refs_off (l : List Layer) : (l.flatMap fun x => if x.visible then [] else sprintf "%d 0 R " [.d x.objNum]) = refs ((l.filter (fun l => !l.visible)).map (·.objNum)) := by
  induction l with
  | nil => rfl
  | cons a l ih =>
    rw [List.flatMap_cons, ih, List.filter_cons]
    have : sprintf "%d 0 R " [.d (a.objNum : Int)] = intDec a.objNum ++ B " 0 R " := sprintfB_of_render _ _ _ rfl
    cases a.visible with
    | true => simp
    | false => simp [refs, this, intDec_ofNat]

theorem layers_cat (f : Fpdf) (hs : f.state = 1) : Cat f f.layerPutCatalog (layersText f) := by
  unfold Fpdf.layerPutCatalog layersText
  by_cases h : f.layer.list.length > 0
  · rw [if_pos h, if_pos h]
    rw [refs_map, refs_off]
    have e : ∀ a b : Bytes, sprintf "/OCProperties <</OCGs [%s] /D <</OFF [%s] /Order [%s]>>>>" [.s a, .s b, .s a] =
      B "/OCProperties <</OCGs [" ++ (a ++ (B "] /D <</OFF [" ++ (b ++ (B "] /Order [" ++ (a ++ B "]>>>>"))))) := fun a b => sprintfB_of_render _ _ _ rfl
    generalize refs (f.layer.list.map (·.objNum)) = a
    generalize refs ((f.layer.list.filter (fun l => !l.visible)).map (·.objNum)) = b
    have h1 := Out.out hs (sprintf "/OCProperties <</OCGs [%s] /D <</OFF [%s] /Order [%s]>>>>" [.s a, .s b, .s a])
    change Out f (f.outf "/OCProperties <</OCGs [%s] /D <</OFF [%s] /Order [%s]>>>>" [.s a, .s b, .s a]) _ at h1
    dsimp only
    rw [e] at h1
    generalize f.outf "/OCProperties <</OCGs [%s] /D <</OFF [%s] /Order [%s]>>>>" [.s a, .s b, .s a] = g at h1 ⊢
    have h2 := Cat.of h1
    rw [h2.layer]
    rw [show B "]>>>>\n" = B "]>>>>" ++ [10] from rfl]
    by_cases ho : f.layer.openLayerPane = true
    · rw [if_pos ho, if_pos ho]
      have h3 := h2.o hs (B "/PageMode /UseOC")
      rw [show B "/PageMode /UseOC\n" = B "/PageMode /UseOC" ++ [10] from rfl]
      simp only [List.append_assoc] at h3 ⊢
      exact h3
    · rw [if_neg ho, if_neg ho]
      simp only [List.append_assoc, List.append_nil] at h2 ⊢
      exact h2
  · rw [if_neg h, if_neg h]; exact Cat.refl f

theorem putcatalog_text (f : Fpdf) (hs : f.state = 1) : W f f.putcatalog [.plain (B "<<\n/Type /Catalog\n/Pages 1 0 R\n" ++ catalogText f)] := by
  have hs1 : f.newobj.state = 1 := (newobj_state f).trans hs
  obtain ⟨k1, -, -, k4⟩ := newobj_keeps f
  have k5 : f.newobj.layer = f.layer := by unfold Fpdf.newobj Fpdf.outf Fpdf.out; dsimp only; split <;> rfl
  have h1 := (((Out.refl f.newobj).o hs1 (B "<<")).o hs1 (B "/Type /Catalog")).o hs1 (B "/Pages 1 0 R")
  have e : [] ++ (B "<<" ++ [10]) ++ (B "/Type /Catalog" ++ [10]) ++ (B "/Pages 1 0 R" ++ [10]) = B "<<\n/Type /Catalog\n/Pages 1 0 R\n" := by decide +kernel
  rw [e] at h1
  unfold Fpdf.putcatalog
  dsimp only
  change Out f.newobj (((f.newobj.outs "<<").outs "/Type /Catalog").outs "/Pages 1 0 R") _ at h1
  generalize ((f.newobj.outs "<<").outs "/Type /Catalog").outs "/Pages 1 0 R" = g0 at h1 ⊢
  have c0 := Cat.of h1
  have m0 := c0.m
  rw [k4] at m0
  simp only [Prod.mk.injEq] at m0
  have s0 := c0.state.trans hs1
  have c1 := putZoom_cat g0 s0
  rw [m0.1] at c1
  generalize g0.putZoom = g1 at c1 ⊢
  have m1 := c1.m
  simp only [Prod.mk.injEq] at m1
  have c2 := putLayout_cat g1 (c1.state.trans s0)
  rw [m1.2.1, m0.2.1] at c2
  generalize g1.putLayout = g2 at c2 ⊢
  have c12 := c1.trans c2
  have m2 := c12.m
  simp only [Prod.mk.injEq] at m2
  have l2 : g2.l = f.l := c12.l.trans (c0.l.trans k1)
  have ly2 : g2.layer = f.layer := c12.layer.trans (c0.layer.trans k5)
  rw [l2, m2.2.2.1, m0.2.2.1]
  have c3 : Cat g2 (if f.l.outlines.length > 0 then (g2.outf "/Outlines %d 0 R" [.d f.m.outlineRoot]).outs "/PageMode /UseOutlines" else g2) (outlinesText f) := by
    unfold outlinesText
    by_cases h : f.l.outlines.length > 0
    · rw [if_pos h, if_pos h]
      have e : sprintf "/Outlines %d 0 R" [.d (f.m.outlineRoot : Int)] = B "/Outlines " ++ (intDec f.m.outlineRoot ++ B " 0 R") := sprintfB_of_render _ _ _ rfl
      have := ((Cat.refl g2).o (c12.state.trans s0) (sprintf "/Outlines %d 0 R" [.d (f.m.outlineRoot : Int)])).o (c12.state.trans s0) (B "/PageMode /UseOutlines")
      rw [e, intDec_ofNat] at this
      rw [show B " 0 R\n/PageMode /UseOutlines\n" = B " 0 R" ++ ([10] ++ (B "/PageMode /UseOutlines" ++ [10])) from rfl]
      unfold Fpdf.outs Fpdf.outf
      rw [e, intDec_ofNat]
      simp only [List.append_assoc, List.nil_append] at this ⊢
      exact this
    · rw [if_neg h, if_neg h]; exact Cat.refl g2
  generalize (if f.l.outlines.length > 0 then (g2.outf "/Outlines %d 0 R" [.d f.m.outlineRoot]).outs "/PageMode /UseOutlines" else g2) = g3 at c3 ⊢
  have c123 := c12.trans c3
  have c4 := layers_cat g3 (c123.state.trans s0)
  have ly3 : layersText g3 = layersText f := by unfold layersText; rw [c3.layer, ly2]
  rw [ly3] at c4
  generalize g3.layerPutCatalog = g4 at c4 ⊢
  have c5 := (c123.trans c4).o s0 (B "/Names <<")
  change Cat g0 (g4.outs "/Names <<") _ at c5
  generalize g4.outs "/Names <<" = g5 at c5 ⊢
  have m5 := c5.m
  simp only [Prod.mk.injEq] at m5
  rw [m5.2.2.2.1, m0.2.2.2.1, m5.2.2.2.2, m0.2.2.2.2]
  have c6 : Cat g5 (if f.m.javascript.isSome = true then g5.outf "/JavaScript %d 0 R" [.d f.m.nJs] else g5) (scriptText f) := by
    unfold scriptText
    by_cases h : f.m.javascript.isSome = true
    · rw [if_pos h, if_pos h]
      have e : sprintf "/JavaScript %d 0 R" [.d (f.m.nJs : Int)] = B "/JavaScript " ++ (intDec f.m.nJs ++ B " 0 R") := sprintfB_of_render _ _ _ rfl
      have := (Cat.refl g5).o (c5.state.trans s0) (sprintf "/JavaScript %d 0 R" [.d (f.m.nJs : Int)])
      unfold Fpdf.outf
      rw [e, intDec_ofNat] at this ⊢
      rw [show B " 0 R\n" = B " 0 R" ++ [10] from rfl]
      simp only [List.append_assoc, List.nil_append] at this ⊢
      exact this
    · rw [if_neg h, if_neg h]; exact Cat.refl g5
  generalize (if f.m.javascript.isSome = true then g5.outf "/JavaScript %d 0 R" [.d f.m.nJs] else g5) = g6 at c6 ⊢
  have c56 := c5.trans c6
  have e6 : g6.embeddedFiles = f.embeddedFiles := by unfold Fpdf.embeddedFiles; rw [c56.l, c0.l, k1]
  rw [e6]
  have c7 := ((c56.o s0 (B "/EmbeddedFiles " ++ f.embeddedFiles)).o s0 (B ">>")).o s0 (B ">>")
  have c8 := c0.trans c7
  change Cat f.newobj (((g6.out (B "/EmbeddedFiles " ++ f.embeddedFiles)).outs ">>").outs ">>") _ at c8
  generalize ((g6.out (B "/EmbeddedFiles " ++ f.embeddedFiles)).outs ">>").outs ">>" = g8 at c8 ⊢
  have c9 := c8.o hs1 (B "endobj")
  change Cat f.newobj (g8.outs "endobj") _ at c9
  have et : ∀ x : Bytes, B "<<\n/Type /Catalog\n/Pages 1 0 R\n" ++ (zoomText f.m.zoomMode ++ layoutText f.m.layoutMode ++ outlinesText f ++ layersText f ++ (B "/Names <<" ++ [10]) ++ scriptText f ++
      (B "/EmbeddedFiles " ++ f.embeddedFiles ++ [10]) ++ (B ">>" ++ [10]) ++ (B ">>" ++ [10])) ++ (B "endobj" ++ [10]) =
      (Body.plain (B "<<\n/Type /Catalog\n/Pages 1 0 R\n" ++ catalogText f)).bytes ++ B "endobj\n" := by
    intro _
    show _ = (B "<<\n/Type /Catalog\n/Pages 1 0 R\n" ++ catalogText f) ++ B "endobj\n"
    unfold catalogText
    rw [show B "/Names <<\n" = B "/Names <<" ++ [10] from rfl, show B ">>\n>>\n" = B ">>" ++ ([10] ++ (B ">>" ++ [10])) from rfl, show B "endobj\n" = B "endobj" ++ [10] from rfl]
    simp only [List.append_assoc]
  rw [et []] at c9
  generalize hbd : Body.plain (B "<<\n/Type /Catalog\n/Pages 1 0 R\n" ++ catalogText f) = bd at c9 ⊢
  generalize g8.outs "endobj" = g9 at c9 ⊢
  let g0' : Fpdf := { f.newobj with buffer := f.newobj.buffer ++ (bd.bytes ++ B "endobj\n") }
  have hok : bd.Ok := hbd ▸ trivial
  refine W.obj hs (g := g0') ⟨rfl, rfl, id⟩ hok ?_ c9.buf c9.n c9.offsets c9.rc
  have w1 : ∀ x : Fpdf, wfix (catfix x) = wfix x := fun _ => rfl
  rw [← w1 g9, c9.fix, w1]
  rfl

/-! ### The script -/

/-- The objects for the script `js`: a name tree and an action. -/
structure JsObjs (E : Ext) (f : Fpdf) (js : Bytes) (Js : List Body) : Prop where
  objs : ∃ c, Js = [.plain (B "<<\n/Names [(EmbeddedJS) " ++ natDec (f.n + 2) ++ B " 0 R]\n>>\n"), .plain (B "<<\n/S /JavaScript\n/JS " ++ textstringPlain c ++ B "\n>>\n")] ∧
    Holds E.md5 f.m.protect (f.n + 2) js c

theorem putjavascript_w (E : Ext) (f : Fpdf) (hs : f.state = 1) (hr : f.m.protect.rc4n ≤ f.n) :
    ∃ Js, W f (f.putjavascript E) Js ∧ (f.m.javascript = none → Js = []) ∧ ∀ js, f.m.javascript = some js → JsObjs E f js Js ∧ (f.putjavascript E).m.nJs = f.n + 1 := by
  unfold Fpdf.putjavascript
  cases hj : f.m.javascript with
  | none => exact ⟨[], W.refl f, fun _ => rfl, fun js h => by cases h⟩
  | some js =>
    dsimp only
    have hs1 : f.newobj.state = 1 := (newobj_state f).trans hs
    have hn1 := (newobj_spec f hs).2.1
    have hp1 := newobj_protect f
    generalize hg : ({ f.newobj with m.nJs := f.newobj.n } : Fpdf) = g0
    have g1 : wfix g0 = wfix f.newobj := by rw [← hg]; rfl
    have g2 : g0.buffer = f.newobj.buffer := by rw [← hg]
    have g3 : g0.n = f.newobj.n := by rw [← hg]
    have g4 : g0.offsets = f.newobj.offsets := by rw [← hg]
    have g5 : RcOk f.newobj g0 := by rw [← hg]; exact id
    have g6 : g0.state = 1 := by rw [← hg]; exact hs1
    have g7 : g0.m.nJs = f.n + 1 := by rw [← hg]; exact hn1
    have g8 : g0.m.protect = f.m.protect := by rw [← hg]; exact hp1
    have n0 : (g0.outs "<<").n = f.n + 1 := ((Out.out g6 (B "<<")).n.trans g3).trans hn1
    rw [n0]
    have e1 : sprintf "/Names [(EmbeddedJS) %d 0 R]" [.d ((f.n + 1 + 1 : Nat) : Int)] = B "/Names [(EmbeddedJS) " ++ (intDec ((f.n + 1 + 1 : Nat) : Int) ++ B " 0 R]") := sprintfB_of_render _ _ _ rfl
    have o1 := ((((Out.refl g0).o g6 (B "<<")).o g6 (sprintf "/Names [(EmbeddedJS) %d 0 R]" [.d ((f.n + 1 + 1 : Nat) : Int)])).o g6 (B ">>")).o g6 (B "endobj")
    change Out g0 ((((g0.outs "<<").outf "/Names [(EmbeddedJS) %d 0 R]" [.d ((f.n + 1 + 1 : Nat) : Int)]).outs ">>").outs "endobj") _ at o1
    have e2 : [] ++ (B "<<" ++ [10]) ++ (sprintf "/Names [(EmbeddedJS) %d 0 R]" [.d ((f.n + 1 + 1 : Nat) : Int)] ++ [10]) ++ (B ">>" ++ [10]) ++ (B "endobj" ++ [10]) =
        (Body.plain (B "<<\n/Names [(EmbeddedJS) " ++ natDec (f.n + 2) ++ B " 0 R]\n>>\n")).bytes ++ B "endobj\n" := by
      show _ = (B "<<\n/Names [(EmbeddedJS) " ++ natDec (f.n + 2) ++ B " 0 R]\n>>\n") ++ B "endobj\n"
      rw [e1, intDec_ofNat, show B "<<\n/Names [(EmbeddedJS) " = B "<<" ++ ([10] ++ B "/Names [(EmbeddedJS) ") from rfl, show B " 0 R]\n>>\n" = B " 0 R]" ++ ([10] ++ (B ">>" ++ [10])) from rfl,
        show B "endobj\n" = B "endobj" ++ [10] from rfl]
      simp only [List.append_assoc, List.nil_append]
    rw [e2] at o1
    have w1 := W.noted hs g1 g2 g3 g4 g5 o1 trivial
    have j1 : ((((g0.outs "<<").outf "/Names [(EmbeddedJS) %d 0 R]" [.d ((f.n + 1 + 1 : Nat) : Int)]).outs ">>").outs "endobj").m.nJs = f.n + 1 := by
      have := congrArg (fun x : Fpdf => x.m.nJs) o1.fix
      exact this.trans g7
    have p1 := w1.rc hr
    have en : ∀ {s c : Bytes} {n : Nat}, Holds E.md5 ((((g0.outs "<<").outf "/Names [(EmbeddedJS) %d 0 R]" [.d ((f.n + 1 + 1 : Nat) : Int)]).outs ">>").outs "endobj").m.protect n s c → Holds E.md5 f.m.protect n s c :=
      fun h => Holds.of_wfix w1.fix h
    generalize (((g0.outs "<<").outf "/Names [(EmbeddedJS) %d 0 R]" [.d ((f.n + 1 + 1 : Nat) : Int)]).outs ">>").outs "endobj" = h0 at w1 j1 p1 en ⊢
    have hs2 : h0.state = 1 := w1.state.trans hs
    have hs3 : h0.newobj.state = 1 := (newobj_state h0).trans hs2
    have hn3 := (newobj_spec h0 hs2).2.1
    have hp3 := newobj_protect h0
    have n1 : h0.n = f.n + 1 := w1.n
    have o2 := ((Out.refl h0.newobj).o hs3 (B "<<")).o hs3 (B "/S /JavaScript")
    have pm : ∀ (g : Fpdf) s, (g.out s).m = g.m := by intro g s; unfold Fpdf.out; split <;> rfl
    have m2 : ((h0.newobj.outs "<<").outs "/S /JavaScript").m = h0.newobj.m := by unfold Fpdf.outs; rw [pm, pm]
    change Out h0.newobj ((h0.newobj.outs "<<").outs "/S /JavaScript") _ at o2
    have n2 : ((h0.newobj.outs "<<").outs "/S /JavaScript").n = f.n + 2 := by rw [o2.n, hn3, n1]
    generalize (h0.newobj.outs "<<").outs "/S /JavaScript" = h1 at o2 m2 n2 ⊢
    obtain ⟨c, t1, t2, t3⟩ := textstring_holds E.md5 h1 js (by rw [m2, hp3, n2]; omega)
    rw [m2, hp3, n2] at t3
    rw [t1]
    have e3 : sprintf "/JS %s" [.s (textstringPlain c)] = B "/JS " ++ (textstringPlain c ++ []) := sprintfB_of_render _ _ _ rfl
    have o3 := ((o2.trans t2).o hs3 (sprintf "/JS %s" [.s (textstringPlain c)])).o hs3 (B ">>")
    have e4 : [] ++ (B "<<" ++ [10]) ++ (B "/S /JavaScript" ++ [10]) ++ [] ++ (sprintf "/JS %s" [.s (textstringPlain c)] ++ [10]) ++ (B ">>" ++ [10]) =
        B "<<\n/S /JavaScript\n/JS " ++ textstringPlain c ++ B "\n>>\n" := by
      rw [e3, show B "<<\n/S /JavaScript\n/JS " = B "<<" ++ ([10] ++ (B "/S /JavaScript" ++ ([10] ++ B "/JS "))) from rfl, show B "\n>>\n" = [10] ++ (B ">>" ++ [10]) from rfl]
      simp only [List.append_assoc, List.nil_append]
    rw [e4] at o3
    have w2 := W.plainEq hs2 o3
    refine ⟨_, w1.trans w2, (fun h => by cases h), fun js' h => ?_⟩
    cases h
    refine ⟨⟨c, rfl, en t3⟩, ?_⟩
    have := congrArg (fun x : Fpdf => x.m.nJs) (o3.trans (Out.out (o3.state.trans hs3) (B "endobj"))).fix
    have q : h0.newobj.m.nJs = h0.m.nJs := by rw [(newobj_keeps h0).2.2.2]
    exact this.trans (q.trans j1)

/-! ### Metadata -/

theorem putxmp_w (E : Ext) (f : Fpdf) (hs : f.state = 1) (hr : f.m.protect.rc4n ≤ f.n) :
    ∃ Xmp, W f (f.putxmp E) Xmp ∧ (f.m.xmp = [] → Xmp = []) ∧
      (f.m.xmp ≠ [] → ∃ b', Xmp = [.stream (B "<< /Type /Metadata /Subtype /XML /Length " ++ natDec f.m.xmp.length ++ B " >>\n") b'] ∧ Holds E.md5 f.m.protect (f.n + 1) f.m.xmp b') := by
  unfold Fpdf.putxmp
  by_cases h : f.m.xmp = []
  · rw [if_pos h]; exact ⟨[], W.refl f, fun _ => rfl, fun h' => absurd h h'⟩
  · rw [if_neg h]
    dsimp only
    have hs1 : f.newobj.state = 1 := (newobj_state f).trans hs
    have hm : f.newobj.m = f.m := (newobj_keeps f).2.2.2
    have pm : ∀ (g : Fpdf) s, (g.out s).m = g.m := by intro g s; unfold Fpdf.out; split <;> rfl
    have e : sprintf "<< /Type /Metadata /Subtype /XML /Length %d >>" [.d (f.m.xmp.length : Int)] = B "<< /Type /Metadata /Subtype /XML /Length " ++ (intDec f.m.xmp.length ++ B " >>") := sprintfB_of_render _ _ _ rfl
    have o1 := Out.out hs1 (sprintf "<< /Type /Metadata /Subtype /XML /Length %d >>" [.d (f.m.xmp.length : Int)])
    rw [hm]
    unfold Fpdf.outf
    rw [e, intDec_ofNat] at o1 ⊢
    have m1 := pm f.newobj (B "<< /Type /Metadata /Subtype /XML /Length " ++ (natDec f.m.xmp.length ++ B " >>"))
    rw [hm] at m1
    have ed : B "<< /Type /Metadata /Subtype /XML /Length " ++ (natDec f.m.xmp.length ++ B " >>") ++ [10] = B "<< /Type /Metadata /Subtype /XML /Length " ++ natDec f.m.xmp.length ++ B " >>\n" := by
      rw [show B " >>\n" = B " >>" ++ [10] from rfl]; simp only [List.append_assoc]
    rw [ed] at o1
    rw [m1]
    obtain ⟨b', w, hb⟩ := W.streamEq (data := f.m.xmp) E.md5 hs o1 (Declares_mk (B "<< /Type /Metadata /Subtype /XML ") _ 32 (B ">>\n") rfl) (by rw [m1]) hr
    exact ⟨_, w, fun h' => absurd h' h, fun _ => ⟨b', rfl, hb⟩⟩

/-! ### The encryption dictionary -/

/-- The text of the encryption dictionary. -/
def encryptText (p : Protect) : Bytes :=
  B "<<\n/Filter /Standard\n/V 1\n/R 2\n/O (" ++ escape p.oValue ++ B ")\n/U (" ++ escape p.uValue ++ B ")\n/P " ++ intDec p.pValue ++ B "\n>>\n"

theorem putEncrypt_w (f : Fpdf) (hs : f.state = 1) :
    ∃ Enc, W f f.putEncrypt Enc ∧ (f.m.protect.encrypted = false → Enc = []) ∧ (f.m.protect.encrypted = true → Enc = [.plain (encryptText f.m.protect)] ∧ f.putEncrypt.m.protect.objNum = f.n + 1) := by
  unfold Fpdf.putEncrypt
  by_cases h : f.m.protect.encrypted = true
  · rw [if_pos h]
    dsimp only
    have hs1 : f.newobj.state = 1 := (newobj_state f).trans hs
    have hn1 := (newobj_spec f hs).2.1
    have hp1 := newobj_protect f
    generalize hg : ({ f.newobj with m.protect.objNum := f.newobj.n } : Fpdf) = g0
    have g1 : wfix g0 = wfix f.newobj := by rw [← hg]; rfl
    have g2 : g0.buffer = f.newobj.buffer := by rw [← hg]
    have g3 : g0.n = f.newobj.n := by rw [← hg]
    have g4 : g0.offsets = f.newobj.offsets := by rw [← hg]
    have g5 : RcOk f.newobj g0 := by rw [← hg]; exact id
    have g6 : g0.state = 1 := by rw [← hg]; exact hs1
    have g7 : g0.m.protect.objNum = f.n + 1 := by rw [← hg]; exact hn1
    have g8 : g0.m.protect.oValue = f.m.protect.oValue := by rw [← hg]; show f.newobj.m.protect.oValue = _; rw [hp1]
    have g9 : g0.m.protect.uValue = f.m.protect.uValue := by rw [← hg]; show f.newobj.m.protect.uValue = _; rw [hp1]
    have g10 : g0.m.protect.pValue = f.m.protect.pValue := by rw [← hg]; show f.newobj.m.protect.pValue = _; rw [hp1]
    have pm : ∀ (g : Fpdf) s, (g.out s).m = g.m := by intro g s; unfold Fpdf.out; split <;> rfl
    unfold Fpdf.outf Fpdf.outs
    simp only [pm]
    rw [g8, g9, g10]
    have eo : sprintf "/O (%s)" [.s (escape f.m.protect.oValue)] = B "/O (" ++ (escape f.m.protect.oValue ++ B ")") := sprintfB_of_render _ _ _ rfl
    have eu : sprintf "/U (%s)" [.s (escape f.m.protect.uValue)] = B "/U (" ++ (escape f.m.protect.uValue ++ B ")") := sprintfB_of_render _ _ _ rfl
    have ep : sprintf "/P %d" [.d f.m.protect.pValue] = B "/P " ++ (intDec f.m.protect.pValue ++ []) := sprintfB_of_render _ _ _ rfl
    have o1 := (((((((((Out.refl g0).o g6 (B "<<")).o g6 (B "/Filter /Standard")).o g6 (B "/V 1")).o g6 (B "/R 2")).o g6 (sprintf "/O (%s)" [.s (escape f.m.protect.oValue)])).o g6
      (sprintf "/U (%s)" [.s (escape f.m.protect.uValue)])).o g6 (sprintf "/P %d" [.d f.m.protect.pValue])).o g6 (B ">>")).o g6 (B "endobj")
    refine ⟨[.plain (encryptText f.m.protect)], W.noted hs g1 g2 g3 g4 g5 (b := .plain (encryptText f.m.protect)) ?_ trivial, (fun h' => by rw [h] at h'; cases h'), fun _ => ⟨rfl, g7⟩⟩
    have et : (Body.plain (encryptText f.m.protect)).bytes ++ B "endobj\n" = [] ++ (B "<<" ++ [10]) ++ (B "/Filter /Standard" ++ [10]) ++ (B "/V 1" ++ [10]) ++ (B "/R 2" ++ [10]) ++
        (sprintf "/O (%s)" [.s (escape f.m.protect.oValue)] ++ [10]) ++ (sprintf "/U (%s)" [.s (escape f.m.protect.uValue)] ++ [10]) ++ (sprintf "/P %d" [.d f.m.protect.pValue] ++ [10]) ++ (B ">>" ++ [10]) ++ (B "endobj" ++ [10]) := by
      show encryptText f.m.protect ++ _ = _
      unfold encryptText
      rw [eo, eu, ep, show B "<<\n/Filter /Standard\n/V 1\n/R 2\n/O (" = B "<<" ++ ([10] ++ (B "/Filter /Standard" ++ ([10] ++ (B "/V 1" ++ ([10] ++ (B "/R 2" ++ ([10] ++ B "/O ("))))))) from rfl,
        show B ")\n/U (" = B ")" ++ ([10] ++ B "/U (") from rfl, show B ")\n/P " = B ")" ++ ([10] ++ B "/P ") from rfl, show B "\n>>\n" = [10] ++ (B ">>" ++ [10]) from rfl,
        show B "endobj\n" = B "endobj" ++ [10] from rfl]
      simp only [List.append_assoc, List.nil_append]
    rw [et]
    exact o1
  · rw [if_neg h]
    exact ⟨[], W.refl f, fun _ => rfl, fun h' => absurd h' h⟩

end Verif.Proof
