import Verif.Proof.Dict
import Verif.Proof.Written
/-
Every resource of the document is in the resource dictionary, under the number of the object that defines it.
-/
namespace Verif.Proof
open Verif Verif.Model Verif.Spec

/-- Templates are kept under their own identifier. -/
def KeyId (E : Ext) (m : List (Bytes × Tmpl)) : Prop := ∀ k t, lookup k m = some t → t.id E = k

theorem out_r {f g : Fpdf} {b : Bytes} (h : Out f g b) : g.r = f.r ∧ g.t = f.t ∧ g.layer = f.layer := by
  have h1 := congrArg (fun f : Fpdf => f.r) h.fix
  have h2 := congrArg (fun f : Fpdf => f.t) h.fix
  have h3 := congrArg (fun f : Fpdf => f.layer) h.fix
  exact ⟨h1, h2, h3⟩

theorem dictText_congr (E : Ext) {f g : Fpdf} (h1 : g.r = f.r) (h2 : g.t = f.t) (h3 : g.layer = f.layer) (a b c d : List Bytes) : dictText E g a b c d = dictText E f a b c d := by
  have e1 : fontEnt g = fontEnt f := by funext k; unfold fontEnt; rw [h2]
  have e2 : imgEnt g = imgEnt f := by funext k; unfold imgEnt; rw [h1]
  have e3 : tplEnt E g = tplEnt E f := by funext k; unfold tplEnt; rw [h1]
  have e4 : spotEnt g = spotEnt f := by funext k; unfold spotEnt; rw [h1]
  unfold dictText
  rw [e1, e2, e3, e4, h1, h3]

section
variable {E : Ext} {f : Fpdf} {v : Nat} {A P M T : List Body} {d : Bytes} {items : List (Nat × Body)} {pdf : Bytes}

/-- The resource dictionary of the file. -/
theorem Written.dictText (h : Written E f v A P M T d items pdf) (hs : f.state = 1) (hn : f.n = 2) : ∃ fs is ts ss : List Bytes,
    (∀ k, k ∈ fs ↔ k ∈ keys (sRes E f).t.fonts) ∧ (∀ k, k ∈ is ↔ k ∈ keys (sRes E f).r.images) ∧ (∀ k, k ∈ ts ↔ k ∈ keys (sRes E f).r.templates) ∧
    (∀ k, k ∈ ss ↔ k ∈ keys (sRes E f).r.spotColorMap) ∧ d = Proof.dictText E (sRes E f) fs is ts ss := by
  obtain ⟨_, _, _, s4, _⟩ := h.stages hs hn
  obtain ⟨h1, o1, o2⟩ := h.dict
  generalize sRes E f = g at *
  have hst : h1.state = 1 := by
    have := congrArg (fun f : Fpdf => f.state) o1.fix
    exact this.trans s4
  obtain ⟨r1, r2, r3⟩ := out_r o1
  have r1 : h1.r = g.r := r1
  have r2 : h1.t = g.t := r2
  have r3 : h1.layer = g.layer := r3
  obtain ⟨fs, is, ts, ss, k1, k2, k3, k4, k5⟩ := putresourcedict_ap E h1 hst
  refine ⟨fs, is, ts, ss, by rw [← r2]; exact k1, by rw [← r1]; exact k2, by rw [← r1]; exact k3, by rw [← r1]; exact k4, ?_⟩
  have e := k5.toOut.buf.symm.trans o2.buf
  rw [← List.append_cancel_left e]
  exact dictText_congr E r1 r2 r3 fs is ts ss

omit E f v A P M T d items pdf in
theorem wfix_reg {f g : Fpdf} (h : wfix g = wfix f) : g.r.images = f.r.images ∧ g.r.templates = f.r.templates :=
  ⟨by have := congrArg (fun f : Fpdf => f.r.images) h; exact this, by have := congrArg (fun f : Fpdf => f.r.templates) h; exact this⟩

theorem aliased_reg (E : Ext) (f : Fpdf) : (aliased E f).r = f.r ∧ resOf (aliased E f) = resOf f ∧ (aliased E f).state = f.state := by
  obtain ⟨ps, b, am, ha, _⟩ := aliased_spec E f
  rw [ha]
  exact ⟨rfl, rfl, rfl⟩

theorem putheader_reg (f : Fpdf) (hs : f.state = 1) : f.putheader.r = f.r ∧ f.putheader.t = f.t ∧ f.putheader.layer = f.layer := by
  obtain ⟨v, hv⟩ := putheader_spec f hs
  rw [hv]
  exact ⟨rfl, rfl, rfl⟩

/-- Two states with the same registries. -/
structure SameReg (f g : Fpdf) : Prop where
  lay : g.layer.list = f.layer.list
  ble : g.r.blendList = f.r.blendList
  gra : g.r.gradientList = f.r.gradientList
  spo : g.r.spotColorMap = f.r.spotColorMap
  fon : g.t.fonts = f.t.fonts
  heap : g.r.imgHeap = f.r.imgHeap
  img : g.r.images = f.r.images
  tem : g.r.templates = f.r.templates
  tob : g.r.templateObjects = f.r.templateObjects

theorem SameReg.trans {f g h : Fpdf} (a : SameReg f g) (b : SameReg g h) : SameReg f h :=
  ⟨b.lay.trans a.lay, b.ble.trans a.ble, b.gra.trans a.gra, b.spo.trans a.spo, b.fon.trans a.fon, b.heap.trans a.heap, b.img.trans a.img, b.tem.trans a.tem, b.tob.trans a.tob⟩

theorem SameReg.of_res {f g : Fpdf} (h : noAttach (resOf g) = noAttach (resOf f)) (h1 : g.r.images = f.r.images) (h2 : g.r.templates = f.r.templates) : SameReg f g :=
  ⟨congrArg Res.layers h, congrArg Res.blendList h, congrArg Res.gradientList h, congrArg Res.spotColorMap h, congrArg Res.fonts h, congrArg Res.imgHeap h, h1, h2, congrArg Res.templateObjects h⟩

theorem SameReg.of_eq {f g : Fpdf} (h1 : g.r = f.r) (h2 : g.t = f.t) (h3 : g.layer = f.layer) : SameReg f g := by
  constructor <;> first | rw [h1] | rw [h2] | rw [h3]

theorem SameReg.of_kp {f g : Fpdf} (hs : f.state = 1) (h : Kp id f g) (hw : wfix g = wfix f) : SameReg f g :=
  .of_res (congrArg noAttach (h hs).2) (wfix_reg hw).1 (wfix_reg hw).2

/-- The registries are the same when the resources are written. -/
theorem Written.root (h : Written E f v A P M T d items pdf) (hs : f.state = 1) : SameReg f (sRoot E f) := by
  have s0 : f.putheader.state = 1 := (putheader_keeps f hs).1
  obtain ⟨p1, p2, p3⟩ := putheader_reg f hs
  have k1 : Kp noAttach f.putheader (sAtt E f) := (putAttachments_keep E _).trans (putAnnotationsAttachments_keep E _)
  have s1 := (k1 s0).1
  have r1 : SameReg f.putheader (sAtt E f) := .of_res (k1 s0).2 (wfix_reg h.att.fix).1 (wfix_reg h.att.fix).2
  obtain ⟨a1, a2, a3⟩ := aliased_reg E (sAtt E f)
  have s2 : (sAli E f).state = 1 := a3.trans s1
  have r2 : SameReg (sAtt E f) (sAli E f) := .of_res (congrArg noAttach a2) (congrArg (·.images) a1) (congrArg (·.templates) a1)
  have k3 : Kp id (sAli E f) (sLoop E f).1 := putPagesLoop_keep E _ _ _ _ _
  have s3 := (k3 s2).1
  have r3 := SameReg.of_kp s2 k3 h.loop.fix
  have k4 : Kp id (sLoop E f).1 (sRoot E f) := putPagesRoot_keep _ _ _ _ _
  have r4 := SameReg.of_kp s3 k4 (by unfold sRoot; exact rootObj_wfix _ s3 _ _ _ _)
  exact (SameReg.of_eq p1 p2 p3).trans (r1.trans (r2.trans (r3.trans r4)))

theorem sect_category {cat : Bytes} {es : List (Bytes × Nat)} {a b : Bytes} (h : d = a ++ sect cat es ++ b) : Category d cat es := ⟨a, b, h⟩

theorem numEntries_mem {pre : Bytes} {i : Nat} {l : List Nat} {j k : Nat} (h : l[j]? = some k) : (pre ++ natDec (i + j), k) ∈ numEntries pre i l := by
  unfold numEntries
  exact List.mem_iff_getElem?.2 ⟨j, by simp [h]⟩

theorem numEntries_mem0 {pre : Bytes} {l : List Nat} {j k : Nat} (h : l[j]? = some k) : (pre ++ natDec j, k) ∈ numEntries pre 0 l := by
  have := @numEntries_mem pre 0 l j k h
  rwa [Nat.zero_add] at this

/-- What an operator finds under a name: the number of an object of the file that begins as it must. -/
def Found (items : List (Nat × Body)) (d op nm : Bytes) : Prop := ∃ cat k b, categoryOf op = some cat ∧ Names d cat nm k ∧ (k, b) ∈ items ∧ Begins op b

theorem dict_font {E : Ext} {g : Fpdf} {fs is ts ss : List Bytes} : Category (Proof.dictText E g fs is ts ss) (B "Font") (fs.filterMap (fontEnt g)) := by
  unfold Proof.dictText
  generalize sect (B "XObject") _ = a1
  generalize sect (B "ColorSpace") _ = a2
  exact ⟨B "/ProcSet [/PDF /Text /ImageB /ImageC /ImageI]\n", _, by simp only [sect, List.append_assoc]; rfl⟩
theorem dict_xobj {E : Ext} {g : Fpdf} {fs is ts ss : List Bytes} : Category (Proof.dictText E g fs is ts ss) (B "XObject") (is.filterMap (imgEnt g) ++ ts.filterMap (tplEnt E g)) := by
  unfold Proof.dictText
  generalize sect (B "Font") _ = a1
  generalize sect (B "ColorSpace") _ = a2
  exact ⟨B "/ProcSet [/PDF /Text /ImageB /ImageC /ImageI]\n" ++ a1, _, by simp only [sect, List.append_assoc]; rfl⟩
theorem dict_spot {E : Ext} {g : Fpdf} {fs is ts ss : List Bytes} : Category (Proof.dictText E g fs is ts ss) (B "ColorSpace") (ss.filterMap (spotEnt g)) := by
  unfold Proof.dictText; exact ⟨_, [], by rw [List.append_nil]; rfl⟩
theorem dict_gs {E : Ext} {g : Fpdf} {fs is ts ss : List Bytes} (h : g.r.blendList.length > 0) :
    Category (Proof.dictText E g fs is ts ss) (B "ExtGState") (numEntries (B "GS") 1 (g.r.blendList.map (·.objNum))) := by
  unfold Proof.dictText
  rw [if_pos h]
  generalize sect (B "Font") _ = a1
  generalize sect (B "XObject") _ = a3
  generalize sect (B "ColorSpace") _ = a2
  exact ⟨B "/ProcSet [/PDF /Text /ImageB /ImageC /ImageI]\n" ++ a1 ++ a3, _, by simp only [sect, List.append_assoc]; rfl⟩
theorem dict_sh {E : Ext} {g : Fpdf} {fs is ts ss : List Bytes} (h : g.r.gradientList.length > 0) :
    Category (Proof.dictText E g fs is ts ss) (B "Shading") (numEntries (B "Sh") 1 (g.r.gradientList.map (·.objNum))) := by
  unfold Proof.dictText
  rw [if_pos h]
  generalize sect (B "Font") _ = a1
  generalize sect (B "XObject") _ = a3
  generalize sect (B "ColorSpace") _ = a2
  generalize (if g.r.blendList.length > 0 then sect (B "ExtGState") _ else []) = a4
  exact ⟨B "/ProcSet [/PDF /Text /ImageB /ImageC /ImageI]\n" ++ a1 ++ a3 ++ a4, _, by simp only [sect, List.append_assoc]; rfl⟩
theorem dict_oc {E : Ext} {g : Fpdf} {fs is ts ss : List Bytes} (h : g.layer.list.length > 0) :
    Category (Proof.dictText E g fs is ts ss) (B "Properties") (numEntries (B "OC") 0 (g.layer.list.map (·.objNum))) := by
  unfold Proof.dictText
  rw [if_pos h]
  generalize sect (B "Font") _ = a1
  generalize sect (B "XObject") _ = a3
  generalize sect (B "ColorSpace") _ = a2
  generalize (if g.r.blendList.length > 0 then sect (B "ExtGState") _ else []) = a4
  generalize (if g.r.gradientList.length > 0 then sect (B "Shading") _ else []) = a5
  exact ⟨B "/ProcSet [/PDF /Text /ImageB /ImageC /ImageI]\n" ++ a1 ++ a3 ++ a4 ++ a5, a2, by simp only [sect, List.append_assoc]⟩

theorem Written.mem_placed (h : Written E f v A P M T d items pdf) (hs : f.state = 1) (hn : f.n = 2) {j : Nat} {b : Body} (hb : M[j]? = some b) : ((sRoot E f).n + 1 + j, b) ∈ items := by
  obtain ⟨_, _, _, _, _, n1, _⟩ := h.stages hs hn
  have := h.mem_mid hb
  rwa [show 3 + A.length + P.length + j = (sRoot E f).n + 1 + j by omega] at this

/-- Blend mode `i` of the document. -/
theorem Written.gs (h : Written E f v A P M T d items pdf) (hs : f.state = 1) (hn : f.n = 2) {i : Nat} {x : BlendMode} (hx : f.r.blendList[i]? = some x) :
    ∃ k, Names d (B "ExtGState") (B "GS" ++ natDec (i + 1)) k ∧ (k, blendBody x) ∈ items := by
  obtain ⟨fs, is, ts, ss, _, _, _, _, rfl⟩ := h.dictText hs hn
  have hr := h.root hs
  obtain ⟨j, h1, h2⟩ := h.res.ble i x (by rw [hr.ble]; exact hx)
  refine ⟨_, ⟨_, dict_gs ?_, ?_⟩, h.mem_placed hs hn h2⟩
  · have := (List.getElem?_eq_some_iff.1 h1).1; omega
  · rw [Nat.add_comm i 1]
    exact numEntries_mem (by simp [h1])

/-- Gradient `i` of the document. -/
theorem Written.sh (h : Written E f v A P M T d items pdf) (hs : f.state = 1) (hn : f.n = 2) {i : Nat} {x : Gradient} (hx : f.r.gradientList[i]? = some x) :
    ∃ k b0 b1, gradBodies x k = [b0, b1] ∧ Names d (B "Shading") (B "Sh" ++ natDec (i + 1)) (k + 1) ∧ (k, b0) ∈ items ∧ (k + 1, b1) ∈ items := by
  obtain ⟨fs, is, ts, ss, _, _, _, _, rfl⟩ := h.dictText hs hn
  have hr := h.root hs
  obtain ⟨j, h1, h2, h3⟩ := h.res.gra i x (by rw [hr.gra]; exact hx)
  have z : ∃ b0 b1, gradBodies x ((sRoot E f).n + 1 + j) = [b0, b1] := ⟨_, _, rfl⟩
  obtain ⟨b0, b1, z⟩ := z
  rw [z] at h2 h3
  refine ⟨(sRoot E f).n + 1 + j, b0, b1, z, ⟨_, dict_sh ?_, ?_⟩, h.mem_placed hs hn h2, by have := h.mem_placed hs hn h3; rwa [← Nat.add_assoc] at this⟩
  · have := (List.getElem?_eq_some_iff.1 h1).1; omega
  · rw [Nat.add_comm i 1, show (sRoot E f).n + 1 + j + 1 = (sRoot E f).n + 2 + j by omega]
    exact numEntries_mem (by simp [h1])

/-- Layer `i` of the document. -/
theorem Written.oc (h : Written E f v A P M T d items pdf) (hs : f.state = 1) (hn : f.n = 2) {i : Nat} {x : Layer} (hx : f.layer.list[i]? = some x) :
    ∃ k c, Names d (B "Properties") (B "OC" ++ natDec i) k ∧ (k, layerBody c) ∈ items ∧ Holds E.md5 (sRoot E f).m.protect k (u16 x.name true) c ∧ k = (sRoot E f).n + 1 + i := by
  obtain ⟨fs, is, ts, ss, _, _, _, _, hd⟩ := h.dictText hs hn
  have hr := (h.root hs).lay
  have hm : ∀ (j : Nat) b, M[j]? = some b → ((sRoot E f).n + 1 + j, b) ∈ items := fun j b hb => h.mem_placed hs hn hb
  have hp := h.res.lay
  clear h
  generalize sRes E f = g at *
  generalize sRoot E f = s at *
  obtain ⟨c, h1, h2, h3⟩ := hp i x (by rw [hr]; exact hx)
  have h4 := (List.getElem?_eq_some_iff.1 h1).1
  have h5 : (g.layer.list.map (·.objNum))[i]? = some (s.n + 1 + i) := by rw [List.getElem?_map, h1]; rfl
  have h6 := hm i _ h2
  generalize hk : s.n + 1 + i = k at *
  rw [hd]
  exact ⟨k, c, ⟨_, dict_oc (by omega), numEntries_mem0 h5⟩, h6, h3, rfl⟩

/-- A spot colour of the document. -/
theorem Written.cs (h : Written E f v A P M T d items pdf) (hs : f.state = 1) (hn : f.n = 2) {k : Bytes} {x : SpotColor} (hx : lookup k f.r.spotColorMap = some x) :
    ∃ n, Names d (B "ColorSpace") (B "CS" ++ natDec x.id) n ∧ (n, spotBody k x) ∈ items := by
  obtain ⟨fs, is, ts, ss, _, _, _, k4, rfl⟩ := h.dictText hs hn
  have hr := h.root hs
  obtain ⟨j, h1, h2⟩ := h.res.spo k x (by rw [hr.spo]; exact hx)
  refine ⟨_, ⟨_, dict_spot, List.mem_filterMap.2 ⟨k, (k4 k).2 (lookup_keys h1), ?_⟩⟩, h.mem_placed hs hn h2⟩
  unfold spotEnt
  rw [h1]; rfl

/-- A font of the document. -/
theorem Written.fo (h : Written E f v A P M T d items pdf) (hs : f.state = 1) (hn : f.n = 2) {k : Bytes} {x : FontDef} (hx : lookup k f.t.fonts = some x) :
    ∃ n t, Names d (B "Font") (B "F" ++ x.i) n ∧ (n, .plain (B "<</Type /Font\n" ++ t)) ∈ items := by
  obtain ⟨fs, is, ts, ss, k1, _, _, _, rfl⟩ := h.dictText hs hn
  have hr := h.root hs
  obtain ⟨j, t, h1, h2⟩ := h.res.fon k x (by rw [hr.fon]; exact hx)
  refine ⟨_, t, ⟨_, dict_font, List.mem_filterMap.2 ⟨k, (k1 k).2 (lookup_keys h1), ?_⟩⟩, h.mem_placed hs hn h2⟩
  unfold fontEnt
  rw [h1]; rfl

/-- An image of the document. -/
theorem Written.im (h : Written E f v A P M T d items pdf) (hs : f.state = 1) (hn : f.n = 2) {k : Bytes} {p : Nat} {x : ImageInfo} (hx : lookup k f.r.images = some p)
    (hp : f.r.imgHeap[p]? = some x) :
    ∃ n b k', ∃ p' : Nat, ∃ im', Names d (B "XObject") (B "I" ++ x.i) n ∧ (n, b) ∈ items ∧ lookup k' f.r.images = some p' ∧ f.r.imgHeap[p']? = some im' ∧ im'.i = x.i ∧
      ImgObj E (sRoot E f).m.protect n im' b := by
  obtain ⟨fs, is, ts, ss, _, k2, _, _, rfl⟩ := h.dictText hs hn
  have hr := h.root hs
  obtain ⟨j, b, k', p', im', h1, h2, h3, h4, h5, h6⟩ := h.res.img k p x (by rw [hr.img]; exact hx) (by rw [hr.heap]; exact hp)
  have hi : (sRes E f).r.images = f.r.images := (wfix_reg h.mid.fix).1.trans hr.img
  refine ⟨_, b, k', p', im', ⟨_, dict_xobj, List.mem_append_left _ (List.mem_filterMap.2 ⟨k, (k2 k).2 (by rw [hi]; exact lookup_keys hx), ?_⟩)⟩, h.mem_placed hs hn h2, by rw [← hr.img]; exact h3,
    by rw [← hr.heap]; exact h4, h5, h6⟩
  unfold imgEnt
  rw [hi, hx]
  simp [h1]

/-- A template of the document. -/
theorem Written.tp (h : Written E f v A P M T d items pdf) (hs : f.state = 1) (hn : f.n = 2) (hptr : PtrOk f.r.templates) {k : Bytes} {x : Tmpl} (hx : lookup k f.r.templates = some x) :
    ∃ n b t', Names d (B "XObject") (B "TPL" ++ x.id E) n ∧ (n, b) ∈ items ∧ t'.id E = x.id E ∧ TplObj E (sRoot E f).m.compress (sRoot E f).m.protect n t' b := by
  obtain ⟨fs, is, ts, ss, _, _, k3, _, rfl⟩ := h.dictText hs hn
  have hr := h.root hs
  obtain ⟨j, b, t', h1, h2, h3, h4⟩ := h.res.tem (by rw [hr.tem]; exact hptr) k x (by rw [hr.tem]; exact hx)
  have hi : (sRes E f).r.templates = f.r.templates := (wfix_reg h.mid.fix).2.trans hr.tem
  refine ⟨_, b, t', ⟨_, dict_xobj, List.mem_append_right _ (List.mem_filterMap.2 ⟨k, (k3 k).2 (by rw [hi]; exact lookup_keys hx), ?_⟩)⟩, h.mem_placed hs hn h2, h3, h4⟩
  unfold tplEnt
  rw [hi, hx]
  simp [h1]

/-- Every name of the document's registries is found. -/
theorem Written.found (h : Written E f v A P M T d items pdf) (hs : f.state = 1) (hn : f.n = 2) (hk : KeyId E f.r.templates) (hptr : PtrOk f.r.templates) {op nm : Bytes}
    (hr : resolves (regsOf f) op nm) (h1 : ¬ (op = B "BDC" ∧ nm = B "OC")) (h2 : ¬ (op = B "Tf" ∧ nm = B "F")) : Found items d op nm := by
  unfold resolves at hr
  split at hr
  · next ho =>
    obtain ⟨i, a, b, rfl⟩ := hr
    obtain ⟨x, hx⟩ : ∃ x, f.r.blendList[i - 1]? = some x := ⟨_, List.getElem?_eq_getElem (show i - 1 < f.r.blendList.length by have : i ≤ f.r.blendList.length := b; omega)⟩
    obtain ⟨k, q1, q2⟩ := h.gs hs hn hx
    rw [show i - 1 + 1 = i by omega] at q1
    refine ⟨_, k, _, by rw [ho]; rfl, q1, q2, .inl ⟨ho, ?_⟩⟩
    exact ⟨B " /ca " ++ x.fillStr ++ B " /CA " ++ x.strokeStr ++ B " /BM /" ++ x.modeStr ++ B ">>\n", by
      rw [show B "<</Type /ExtGState /ca " = B "<</Type /ExtGState" ++ B " /ca " from rfl]; simp only [List.append_assoc]⟩
  split at hr
  · next ho =>
    obtain ⟨i, a, b, rfl⟩ := hr
    obtain ⟨x, hx⟩ : ∃ x, f.r.gradientList[i - 1]? = some x := ⟨_, List.getElem?_eq_getElem (show i - 1 < f.r.gradientList.length by have : i ≤ f.r.gradientList.length := b; omega)⟩
    obtain ⟨k, b0, b1, q0, q1, _, q2⟩ := h.sh hs hn hx
    rw [show i - 1 + 1 = i by omega] at q1
    unfold gradBodies at q0
    simp only [List.cons.injEq, and_true] at q0
    refine ⟨_, k + 1, b1, by rw [ho]; rfl, q1, q2, ?_⟩
    rw [← q0.2]
    refine .inr (.inl ⟨ho, ?_⟩)
    simp only [List.append_assoc]
    exact List.prefix_append _ _
  split at hr
  · next ho =>
    rcases hr with rfl | ⟨i, a, rfl⟩
    · exact absurd ⟨ho, rfl⟩ h1
    · obtain ⟨x, hx⟩ : ∃ x, f.layer.list[i]? = some x := ⟨_, List.getElem?_eq_getElem a⟩
      obtain ⟨k, c, q1, q2, _⟩ := h.oc hs hn hx
      refine ⟨_, k, _, by rw [ho]; rfl, q1, q2, .inr (.inr (.inl ⟨ho, ?_⟩))⟩
      exact ⟨B " /Name " ++ textstringPlain c ++ B ">>\n", by
        rw [show B "<</Type /OCG /Name " = B "<</Type /OCG" ++ B " /Name " from rfl]; simp only [List.append_assoc]⟩
  split at hr
  · next ho =>
    obtain ⟨k, c, a, rfl⟩ := hr
    obtain ⟨n, q1, q2⟩ := h.cs hs hn a
    refine ⟨_, n, _, by rcases ho with ho | ho <;> (rw [ho]; rfl), q1, q2, ?_⟩
    refine .inr (.inr (.inr (.inl ⟨ho, ?_⟩)))
    simp only [List.append_assoc]
    exact List.prefix_append _ _
  split at hr
  · next ho =>
    rcases hr with rfl | ⟨k, x, a, rfl⟩
    · exact absurd ⟨ho, rfl⟩ h2
    · obtain ⟨n, t, q1, q2⟩ := h.fo hs hn a
      exact ⟨_, n, _, by rw [ho]; rfl, q1, q2, .inr (.inr (.inr (.inr ⟨ho, List.prefix_append _ _⟩)))⟩
  split at hr
  · next ho =>
    rcases hr with ⟨k, p, im, a1, a2, rfl⟩ | ⟨k, t, a1, rfl⟩
    · obtain ⟨n, b, k', p', im', q1, q2, _, _, _, dd, b', rfl, _⟩ := h.im hs hn a1 a2
      refine ⟨_, n, _, by rw [ho]; rfl, q1, q2, ho, .inl ?_⟩
      rw [show B "<</Type /XObject\n/Subtype /Image\n/Width " = B "<</Type /XObject\n/Subtype /Image\n" ++ B "/Width " from rfl]
      simp only [List.append_assoc]
      exact List.prefix_append _ _
    · obtain ⟨n, b, t', q1, q2, _, dd, b', rfl, _⟩ := h.tp hs hn hptr a1
      rw [hk k t a1] at q1
      exact ⟨_, n, _, by rw [ho]; rfl, q1, q2, ho, .inr ⟨_, List.prefix_append _ _⟩⟩
  · exact hr.elim

end

end Verif.Proof
