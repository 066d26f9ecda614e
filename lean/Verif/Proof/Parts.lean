import Verif.Proof.Closure
import Verif.Proof.Attach
/-
The catalog, the information dictionary and the other objects at the end of the file, in terms of the document as it was when it was closed.
-/
namespace Verif.Proof
open Verif Verif.Model Verif.Spec

/-- What a reader looks up in the parts of the document that writing does not change. -/
structure SameMeta (f g : Fpdf) : Prop where
  m : (g.m.producer, g.m.title, g.m.subject, g.m.author, g.m.keywords, g.m.creator) = (f.m.producer, f.m.title, f.m.subject, f.m.author, f.m.keywords, f.m.creator)
  zoom : g.m.zoomMode = f.m.zoomMode
  layout : g.m.layoutMode = f.m.layoutMode
  js : g.m.javascript = f.m.javascript
  xmp : g.m.xmp = f.m.xmp
  enc : g.m.protect.encrypted = f.m.protect.encrypted
  key : g.m.protect.encryptionKey = f.m.protect.encryptionKey
  dict : (g.m.protect.oValue, g.m.protect.uValue, g.m.protect.pValue) = (f.m.protect.oValue, f.m.protect.uValue, f.m.protect.pValue)
  pane : g.layer.openLayerPane = f.layer.openLayerPane
  outlines : g.l.outlines = f.l.outlines

theorem SameMeta.of_dfix {f g : Fpdf} (h : dfix g = dfix f) : SameMeta f g := by
  constructor
  · have := congrArg (fun x : Fpdf => (x.m.producer, x.m.title, x.m.subject, x.m.author, x.m.keywords, x.m.creator)) h; exact this
  · have := congrArg (fun x : Fpdf => x.m.zoomMode) h; exact this
  · have := congrArg (fun x : Fpdf => x.m.layoutMode) h; exact this
  · have := congrArg (fun x : Fpdf => x.m.javascript) h; exact this
  · have := congrArg (fun x : Fpdf => x.m.xmp) h; exact this
  · have := congrArg (fun x : Fpdf => x.m.protect.encrypted) h; exact this
  · have := congrArg (fun x : Fpdf => x.m.protect.encryptionKey) h; exact this
  · have := congrArg (fun x : Fpdf => (x.m.protect.oValue, x.m.protect.uValue, x.m.protect.pValue)) h; exact this
  · have := congrArg (fun x : Fpdf => x.layer.openLayerPane) h; exact this
  · have := congrArg (fun x : Fpdf => x.l.outlines) h; exact this

theorem Holds.of_same {md5 : Bytes → Bytes} {f g : Fpdf} (h : SameMeta f g) {n : Nat} {b c : Bytes} (hb : Holds md5 g.m.protect n b c) : Holds md5 f.m.protect n b c := by
  unfold Holds at hb ⊢
  rw [h.enc, h.key] at hb
  exact hb

/-- Only the attachments. -/
def onlyAtt (r : Res) : List Attachment × List (Nat × Attachment) := (r.attachments, r.heap)
/-- Only the layers. -/
def onlyLay (r : Res) : List Layer := r.layers

theorem onlyLay_eq {f g : Fpdf} (h : onlyLay (resOf g) = onlyLay (resOf f)) : g.layer.list = f.layer.list := h
theorem onlyAtt_eq {f g : Fpdf} (h : onlyAtt (resOf g) = onlyAtt (resOf f)) : g.l.attachments = f.l.attachments ∧ g.l.heap = f.l.heap := ⟨congrArg Prod.fst h, congrArg Prod.snd h⟩

theorem kp_att {d : Res → Res} (hd : ∀ r, onlyAtt (d r) = onlyAtt r) {f g : Fpdf} (h : Kp d f g) (hs : f.state = 1) : g.state = 1 ∧ onlyAtt (resOf g) = onlyAtt (resOf f) :=
  ⟨(h hs).1, by rw [← hd, (h hs).2, hd]⟩
theorem kp_lay {d : Res → Res} (hd : ∀ r, onlyLay (d r) = onlyLay r) {f g : Fpdf} (h : Kp d f g) (hs : f.state = 1) : g.state = 1 ∧ onlyLay (resOf g) = onlyLay (resOf f) :=
  ⟨(h hs).1, by rw [← hd, (h hs).2, hd]⟩

theorem mid_att (E : Ext) (f : Fpdf) (hs : f.state = 1) :
    onlyAtt (resOf ((((((((f.layerPutLayers E).putBlendModes).putGradients).putSpotColors E).putfonts E).putimages E).putTemplates E).putResourceObj E)) = onlyAtt (resOf f) := by
  have h1 := kp_att (d := noLayers) (fun _ => rfl) (layerPutLayers_keep E f) hs
  generalize f.layerPutLayers E = g1 at *
  have h2 := kp_att (d := noBlend) (fun _ => rfl) (putBlendModes_keep g1) h1.1
  generalize g1.putBlendModes = g2 at *
  have h3 := kp_att (d := noGrad) (fun _ => rfl) (putGradients_keep g2) h2.1
  generalize g2.putGradients = g3 at *
  have h4 := kp_att (d := noSpot) (fun _ => rfl) (putSpotColors_keep E g3) h3.1
  generalize g3.putSpotColors E = g4 at *
  have h5 := kp_att (d := noFonts) (fun _ => rfl) (putfonts_keep E g4) h4.1
  generalize g4.putfonts E = g5 at *
  have h6 := kp_att (d := noImages) (fun _ => rfl) (putimages_keep E g5) h5.1
  generalize g5.putimages E = g6 at *
  have h7 := kp_att (d := noTemplates) (fun _ => rfl) (putTemplates_keep E g6) h6.1
  generalize g6.putTemplates E = g7 at *
  have h8 := kp_att (d := id) (fun _ => rfl) (putResourceObj_keep E g7) h7.1
  rw [h8.2, h7.2, h6.2, h5.2, h4.2, h3.2, h2.2, h1.2]

theorem tail_att (E : Ext) (f : Fpdf) (hs : f.state = 1) : onlyAtt (resOf (((((f.putjavascript E).putEncrypt).putbookmarks E).putxmp E).putinfo E)) = onlyAtt (resOf f) ∧
    onlyLay (resOf (((((f.putjavascript E).putEncrypt).putbookmarks E).putxmp E).putinfo E)) = onlyLay (resOf f) := by
  have h1 := kp_att (d := noTail) (fun _ => rfl) (putjavascript_keep E f) hs
  have l1 := kp_lay (d := noTail) (fun _ => rfl) (putjavascript_keep E f) hs
  generalize f.putjavascript E = g1 at *
  have h2 := kp_att (d := noTail) (fun _ => rfl) (putEncrypt_keep g1) h1.1
  have l2 := kp_lay (d := noTail) (fun _ => rfl) (putEncrypt_keep g1) h1.1
  generalize g1.putEncrypt = g2 at *
  have h3 := kp_att (d := noTail) (fun _ => rfl) (putbookmarks_keep E g2) h2.1
  have l3 := kp_lay (d := noTail) (fun _ => rfl) (putbookmarks_keep E g2) h2.1
  generalize g2.putbookmarks E = g3 at *
  have h4 := kp_att (d := id) (fun _ => rfl) (putxmp_keep E g3) h3.1
  have l4 := kp_lay (d := id) (fun _ => rfl) (putxmp_keep E g3) h3.1
  generalize g3.putxmp E = g4 at *
  have h5 := kp_att (d := id) (fun _ => rfl) (putinfo_keep E g4) h4.1
  have l5 := kp_lay (d := id) (fun _ => rfl) (putinfo_keep E g4) h4.1
  exact ⟨by rw [h5.2, h4.2, h3.2, h2.2, h1.2], by rw [l5.2, l4.2, l3.2, l2.2, l1.2]⟩

theorem sInf_att (E : Ext) (f : Fpdf) (s3 : (sRes E f).state = 1) (s4 : (sDict E f).state = 1) :
    onlyAtt (resOf (sInf E f)) = onlyAtt (resOf (sDict E f)) ∧ onlyLay (resOf (sInf E f)) = onlyLay (resOf (sRes E f)) := by
  have e2 : onlyLay (resOf (sDict E f)) = onlyLay (resOf (sRes E f)) := by
    unfold sDict
    exact (kp_lay (d := id) (fun _ => rfl) (putResourceObj_keep E (sRes E f)) s3).2
  unfold sInf sXmp sBk sEnc sJs
  rw [← e2]
  exact tail_att E (sDict E f) s4

theorem sDict_att (E : Ext) (f : Fpdf) (s1 : (sAli E f).state = 1) (s2 : (sRoot E f).state = 1) : onlyAtt (resOf (sDict E f)) = onlyAtt (resOf (sAtt E f)) := by
  have e2 : onlyAtt (resOf (sDict E f)) = onlyAtt (resOf (sRoot E f)) := by
    unfold sDict sRes sFonts
    exact mid_att E (sRoot E f) s2
  have e3 : (sLoop E f).1.state = 1 ∧ onlyAtt (resOf (sLoop E f).1) = onlyAtt (resOf (sAli E f)) := by
    unfold sLoop
    exact kp_att (d := id) (fun _ => rfl) (putPagesLoop_keep E (defDim (sAli E f)).2 (sAtt E f).page 1 (sAli E f) []) s1
  have e4 : onlyAtt (resOf (sRoot E f)) = onlyAtt (resOf (sLoop E f).1) := by
    unfold sRoot
    exact (kp_att (d := id) (fun _ => rfl) (putPagesRoot_keep (sLoop E f).1 (sAtt E f).page (sLoop E f).2 (defDim (sAli E f)).1 (defDim (sAli E f)).2) e3.1).2
  have e5 : onlyAtt (resOf (sAli E f)) = onlyAtt (resOf (sAtt E f)) := by
    unfold sAli
    exact congrArg onlyAtt (aliased_reg E (sAtt E f)).2.1
  rw [e2, e4, e3.2, e5]

section
variable {E : Ext} {f : Fpdf} {v : Nat} {A P M T : List Body} {d : Bytes} {items : List (Nat × Body)} {pdf : Bytes}

theorem Tail.length {Js Enc Bk Xmp : List Body} {i c : Bytes} (h : Tail E f T Js Enc Bk Xmp i c) : T.length = Js.length + Enc.length + Bk.length + Xmp.length + 2 := by
  rw [h.eq]; simp only [List.length_append, List.length_cons, List.length_nil]; omega

theorem Tail.at {Js Enc Bk Xmp : List Body} {i c : Bytes} (h : Tail E f T Js Enc Bk Xmp i c) :
    (∀ (j : Nat) b, Js[j]? = some b → T[j]? = some b) ∧ (∀ (j : Nat) b, Enc[j]? = some b → T[Js.length + j]? = some b) ∧
    (∀ (j : Nat) b, Xmp[j]? = some b → T[Js.length + Enc.length + Bk.length + j]? = some b) ∧
    T[Js.length + Enc.length + Bk.length + Xmp.length]? = some (.plain (B "<<\n" ++ i ++ B ">>\n")) ∧
    T[Js.length + Enc.length + Bk.length + Xmp.length + 1]? = some (.plain (B "<<\n/Type /Catalog\n/Pages 1 0 R\n" ++ c)) := by
  have e : T = Js ++ (Enc ++ (Bk ++ (Xmp ++ [.plain (B "<<\n" ++ i ++ B ">>\n"), .plain (B "<<\n/Type /Catalog\n/Pages 1 0 R\n" ++ c)]))) := by rw [h.eq]; simp only [List.append_assoc]
  generalize Body.plain (B "<<\n" ++ i ++ B ">>\n") = b1 at *
  generalize Body.plain (B "<<\n/Type /Catalog\n/Pages 1 0 R\n" ++ c) = b2 at *
  subst e
  refine ⟨fun j b hj => at_left hj, fun j b hj => ?_, fun j b hj => ?_, ?_, ?_⟩
  · exact at_right (at_left hj)
  · rw [Nat.add_assoc, Nat.add_assoc]; exact at_right (at_right (at_right (at_left hj)))
  · rw [Nat.add_assoc, Nat.add_assoc]; exact at_right (at_right (at_right (at_right (i := 0) rfl)))
  · rw [Nat.add_assoc, Nat.add_assoc, Nat.add_assoc]; exact at_right (at_right (at_right (at_right (i := 1) rfl)))

/-- The objects at the end of the file. -/
structure Ending (E : Ext) (f : Fpdf) (items : List (Nat × Body)) (N : Nat) : Prop where
  info : ∃ cs, cs.length = (infoEntries f.m E.creation E.modified).length ∧
    (N - 1, Body.plain (B "<<\n" ++ infoLines (infoEntries f.m E.creation E.modified) cs ++ B ">>\n")) ∈ items ∧
    (f.m.protect.encrypted = false → cs = (infoEntries f.m E.creation E.modified).map Prod.snd) ∧
    ∀ e c, (infoEntries f.m E.creation E.modified).head? = some e → cs.head? = some c → Holds E.md5 f.m.protect (N - 1) e.2 c
  cat : (N, Body.plain (B "<<\n/Type /Catalog\n/Pages 1 0 R\n" ++ catalogText (sInf E f))) ∈ items
  same : SameMeta f (sInf E f)
  layers : (sInf E f).layer.list = (sRes E f).layer.list
  attach : (sInf E f).l.attachments = (sAtt E f).l.attachments
  js : ∀ s, f.m.javascript = some s → ∃ n c, (sInf E f).m.nJs = n ∧ (n, Body.plain (B "<<\n/Names [(EmbeddedJS) " ++ natDec (n + 1) ++ B " 0 R]\n>>\n")) ∈ items ∧
    (n + 1, Body.plain (B "<<\n/S /JavaScript\n/JS " ++ textstringPlain c ++ B "\n>>\n")) ∈ items ∧ Holds E.md5 f.m.protect (n + 1) s c
  xmp : f.m.xmp ≠ [] → ∃ n b', (n, Body.stream (B "<< /Type /Metadata /Subtype /XML /Length " ++ natDec f.m.xmp.length ++ B " >>\n") b') ∈ items ∧ Holds E.md5 f.m.protect n f.m.xmp b'
  enc : f.m.protect.encrypted = true → ((sEnd E f).m.protect.objNum, Body.plain (encryptText f.m.protect)) ∈ items
  bk : f.l.outlines ≠ [] → (sInf E f).m.outlineRoot = (sEnc E f).n + 1 + f.l.outlines.length
  endEnc : (sEnd E f).m.protect.encrypted = f.m.protect.encrypted

theorem encryptText_congr {p q : Protect} (h : (p.oValue, p.uValue, p.pValue) = (q.oValue, q.uValue, q.pValue)) : encryptText p = encryptText q := by
  simp only [Prod.mk.injEq] at h
  unfold encryptText
  rw [h.1, h.2.1, h.2.2]

theorem infoEntries_congr {f g : Fpdf} (h : SameMeta f g) (a b : Bytes) : infoEntries g.m a b = infoEntries f.m a b := by
  have := h.m
  simp only [Prod.mk.injEq] at this
  unfold infoEntries
  rw [this.1, this.2.1, this.2.2.1, this.2.2.2.1, this.2.2.2.2.1, this.2.2.2.2.2]

theorem Written.ending (h : Written E f v A P M T d items pdf) (hs : f.state = 1) (hn : f.n = 2) : Ending E f items (2 + A.length + P.length + M.length + T.length) := by
  obtain ⟨s0, s1, s2, s3, s4, n1, n2, F1, F2, F3, F4⟩ := h.stages hs hn
  obtain ⟨Js, Enc, Bk, Xmp, i, c, ht⟩ := h.tail
  have hlen := ht.length
  obtain ⟨a1, a2, a3, a4, a5⟩ := ht.at
  have G1 := F4.of_wfix ht.js.fix
  have G2 := G1.of_wfix ht.enc.fix
  have G3 := G2.of_wfix ht.bk.fix
  have G4 := G3.of_wfix ht.xmp.fix
  have G5 := G4.of_wfix ht.info.fix
  have D := SameMeta.of_dfix F4.fixed
  have D1 := SameMeta.of_dfix G1.fixed
  have D3 := SameMeta.of_dfix G3.fixed
  have D4 := SameMeta.of_dfix G4.fixed
  have m1 : (sJs E f).n = (sDict E f).n + Js.length := ht.js.n
  have m2 : (sEnc E f).n = (sJs E f).n + Enc.length := ht.enc.n
  have m3 : (sBk E f).n = (sEnc E f).n + Bk.length := ht.bk.n
  have m4 : (sXmp E f).n = (sBk E f).n + Xmp.length := ht.xmp.n
  have mem := fun (j : Nat) (b : Body) (hb : T[j]? = some b) => h.mem_tail hb
  refine ⟨?_, ?_, SameMeta.of_dfix G5.fixed, ?_, ?_, ?_, ?_, ?_, ?_, (G5.of_wfix ht.cat.fix).encrypted⟩
  · obtain ⟨cs, q1, q2, q3, q4⟩ := ht.infoText
    rw [infoEntries_congr D4] at q1 q2 q3 q4
    refine ⟨cs, q1, ?_, fun he => q3 (D4.enc.trans he), fun e c' he hc => ?_⟩
    · rw [← q2]
      have := mem _ _ a4
      rw [show 2 + A.length + P.length + M.length + T.length - 1 = 3 + A.length + P.length + M.length + (Js.length + Enc.length + Bk.length + Xmp.length) by omega]
      exact this
    · have := (q4 e c' he hc).of_same D4
      rw [show 2 + A.length + P.length + M.length + T.length - 1 = (sXmp E f).n + 1 by omega]
      exact this
  · have := mem _ _ a5
    rw [show 2 + A.length + P.length + M.length + T.length = 3 + A.length + P.length + M.length + (Js.length + Enc.length + Bk.length + Xmp.length + 1) by omega, ← ht.catText]
    exact this
  · exact onlyLay_eq (sInf_att E f s3 s4).2
  · exact (onlyAtt_eq ((sInf_att E f s3 s4).1.trans (sDict_att E f s1 s2))).1
  · intro s hj
    obtain ⟨⟨c', q1, q2⟩, q3⟩ := ht.jsSome s (D.js.trans hj)
    refine ⟨(sDict E f).n + 1, c', q3, ?_, ?_, ?_⟩
    · have := mem _ _ (a1 0 _ (by rw [q1]; rfl))
      rw [show (sDict E f).n + 1 = 3 + A.length + P.length + M.length + 0 by omega]
      rw [show (sDict E f).n + 2 = 3 + A.length + P.length + M.length + 0 + 1 by omega] at this
      exact this
    · have := mem _ _ (a1 1 _ (by rw [q1]; rfl))
      rw [show (sDict E f).n + 1 + 1 = 3 + A.length + P.length + M.length + 1 by omega]
      exact this
    · exact q2.of_same D
  · intro hx
    obtain ⟨b', q1, q2⟩ := ht.xmpSome (by rw [D3.xmp]; exact hx)
    rw [D3.xmp] at q1 q2
    refine ⟨(sBk E f).n + 1, b', ?_, q2.of_same D3⟩
    have := mem _ _ (a3 0 _ (by rw [q1]; rfl))
    rw [show (sBk E f).n + 1 = 3 + A.length + P.length + M.length + (Js.length + Enc.length + Bk.length + 0) by omega]
    exact this
  · intro he
    obtain ⟨q1, q2⟩ := ht.encSome (D1.enc.trans he)
    rw [q2, ← encryptText_congr D1.dict]
    have := mem _ _ (a2 0 _ (by rw [q1]; rfl))
    rw [show (sJs E f).n + 1 = 3 + A.length + P.length + M.length + (Js.length + 0) by omega]
    exact this
  · intro ho
    have D2 := SameMeta.of_dfix G2.fixed
    have ho' : (sEnc E f).l.outlines ≠ [] := by rw [D2.outlines]; exact ho
    obtain ⟨objs, hB, hl, _⟩ := ht.bkObjs.some ho'
    rw [ht.rootNum ho', m3, hB, List.length_append, hl, D2.outlines]
    simp only [List.length_cons, List.length_nil]
    omega

end
/-- The layers in the catalog. -/
theorem layers_numbered {l g : List Layer} {n : Nat} (hl : g.length = l.length) (h : ∀ (i : Nat) x, l[i]? = some x → g[i]? = some { x with objNum := n + i }) :
    g.map (·.objNum) = (List.range l.length).map (n + ·) ∧ ∀ i x, l[i]? = some x → ((n + i) ∈ (g.filter (fun y => !y.visible)).map (·.objNum) ↔ x.visible = false) := by
  have key : ∀ (i : Nat) y, g[i]? = some y → ∃ x, l[i]? = some x ∧ y = { x with objNum := n + i } := by
    intro i y hy
    have : i < l.length := by rw [← hl]; exact (List.getElem?_eq_some_iff.1 hy).1
    have hx := List.getElem?_eq_getElem this
    have := h i _ hx
    rw [this] at hy
    cases hy
    exact ⟨_, hx, rfl⟩
  constructor
  · apply List.ext_getElem?
    intro i
    rw [List.getElem?_map, List.getElem?_map]
    by_cases hi : i < l.length
    · rw [h i _ (List.getElem?_eq_getElem hi), List.getElem?_range hi]; rfl
    · rw [List.getElem?_eq_none (by omega), List.getElem?_eq_none (by simp; omega)]; rfl
  · intro i x hx
    simp only [List.mem_map, List.mem_filter]
    constructor
    · rintro ⟨y, ⟨hy, hv⟩, ho⟩
      obtain ⟨j, hj⟩ := List.mem_iff_getElem?.1 hy
      obtain ⟨x', hx', rfl⟩ := key j y hj
      have : j = i := by simp only at ho; omega
      subst this
      rw [hx] at hx'
      cases hx'
      simpa using hv
    · intro hv
      exact ⟨_, ⟨List.mem_iff_getElem?.2 ⟨i, h i x hx⟩, by simp [hv]⟩, rfl⟩

end Verif.Proof
