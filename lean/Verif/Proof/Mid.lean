import Verif.Proof.Templates
import Verif.Proof.Images
/-
The objects between the page tree and the resource dictionary: every resource of the document is one of them, under the number the
document notes for it.
-/
namespace Verif.Proof
open Verif Verif.Model Verif.Spec

/-- From `f` to `g` the objects `M` are written, and every resource of `f` is one of them. -/
structure Placed (E : Ext) (f g : Fpdf) (M : List Body) : Prop where
  lay : ∀ (i : Nat) x, f.layer.list[i]? = some x → ∃ c, g.layer.list[i]? = some { x with objNum := f.n + 1 + i } ∧ M[i]? = some (layerBody c) ∧
    Holds E.md5 f.m.protect (f.n + 1 + i) (u16 x.name true) c
  layN : g.layer.list.length = f.layer.list.length
  ble : ∀ (i : Nat) x, f.r.blendList[i]? = some x → ∃ j, g.r.blendList[i]? = some { x with objNum := f.n + 1 + j } ∧ M[j]? = some (blendBody x)
  bleN : g.r.blendList.length = f.r.blendList.length
  gra : ∀ (i : Nat) x, f.r.gradientList[i]? = some x → ∃ j, g.r.gradientList[i]? = some { x with objNum := f.n + 2 + j } ∧
    M[j]? = (gradBodies x (f.n + 1 + j))[0]? ∧ M[j + 1]? = (gradBodies x (f.n + 1 + j))[1]?
  graN : g.r.gradientList.length = f.r.gradientList.length
  spo : ∀ k v, lookup k f.r.spotColorMap = some v → ∃ j, lookup k g.r.spotColorMap = some { v with objID := f.n + 1 + j } ∧ M[j]? = some (spotBody k v)
  fon : ∀ k v, lookup k f.t.fonts = some v → ∃ j t, lookup k g.t.fonts = some { v with n := f.n + 1 + j } ∧ M[j]? = some (.plain (B "<</Type /Font\n" ++ t))
  img : ∀ k (p : Nat) im, lookup k f.r.images = some p → f.r.imgHeap[p]? = some im → ∃ j b k', ∃ p' : Nat, ∃ im', g.r.imgHeap[p]? = some { im with n := f.n + 1 + j } ∧
    M[j]? = some b ∧ lookup k' f.r.images = some p' ∧ f.r.imgHeap[p']? = some im' ∧ im'.i = im.i ∧ ImgObj E f.m.protect (f.n + 1 + j) im' b
  tem : PtrOk f.r.templates → ∀ k t, lookup k f.r.templates = some t → ∃ j b t', lookup (t.id E) g.r.templateObjects = some (f.n + 1 + j) ∧
    M[j]? = some b ∧ t'.id E = t.id E ∧ TplObj E f.m.compress f.m.protect (f.n + 1 + j) t' b
  ima : ∃ (k1 : Nat) (ws : List (ImageInfo × List Body)), Blocks E f.m.compress f.m.protect (f.n + k1) ws ∧ (ws.map (·.1.i)).Nodup ∧
    (∀ x ∈ ws, ∃ k p, lookup k f.r.images = some p ∧ f.r.imgHeap[p]? = some x.1) ∧ (∀ (q : Nat) b, (ws.flatMap (·.2))[q]? = some b → M[k1 + q]? = some b) ∧
    ∀ k (p : Nat) im, lookup k f.r.images = some p → f.r.imgHeap[p]? = some im → ∃ n, g.r.imgHeap[p]? = some { im with n := n } ∧ (im.i, n) ∈ imgNums (f.n + k1) ws
  tpl : ∃ k0 : Nat, g.r.templateObjects = tabAfter E (f.n + k0) f.r.templateObjects (sorted E f) ∧
    ∀ (i : Nat) t, (sorted E f)[i]? = some t → ∃ b, M[k0 + i]? = some b ∧ TplAt E g f.m.compress f.m.protect (f.n + k0) f.r.templateObjects (sorted E f) i t b

theorem at_left {α} {l r : List α} {i : Nat} {x : α} (h : l[i]? = some x) : (l ++ r)[i]? = some x := by
  rw [List.getElem?_append_left (by have := List.getElem?_eq_some_iff.1 h; exact this.1)]
  exact h

theorem at_right {α} {l r : List α} {i : Nat} {x : Option α} (h : r[i]? = x) : (l ++ r)[l.length + i]? = x := by
  rw [List.getElem?_append_right (by omega), Nat.add_sub_cancel_left]
  exact h

theorem layers_w (E : Ext) (f : Fpdf) (hs : f.state = 1) (hr : f.m.protect.rc4n ≤ f.n) : ∃ objs, W f (f.layerPutLayers E) objs ∧ (f.layerPutLayers E).layer.list.length = f.layer.list.length ∧
    ∀ (i : Nat) x, f.layer.list[i]? = some x → ∃ c, (f.layerPutLayers E).layer.list[i]? = some { x with objNum := f.n + 1 + i } ∧ objs[i]? = some (layerBody c) ∧
      Holds E.md5 f.m.protect (f.n + 1 + i) (u16 x.name true) c := by
  obtain ⟨objs, w, _, h2, h3⟩ := layerLoop_w E f.layer.list f [] hs hr
  unfold Fpdf.layerPutLayers
  dsimp only
  generalize f.layerPutLayersLoop E [] f.layer.list = q at *
  obtain ⟨g, ls⟩ := q
  dsimp only at *
  subst h2
  refine ⟨objs, ⟨w.buf, w.n, w.fix, w.len, w.old, w.new, w.ok, w.rc⟩, by simp, fun i x hx => ?_⟩
  obtain ⟨c, h1, h2⟩ := h3 i x hx
  exact ⟨c, by simp [hx], h1, h2⟩

theorem blends_w (f : Fpdf) (hs : f.state = 1) : ∃ objs, W f f.putBlendModes objs ∧ f.putBlendModes.r.blendList.length = f.r.blendList.length ∧
    ∀ (i : Nat) x, f.r.blendList[i]? = some x → f.putBlendModes.r.blendList[i]? = some { x with objNum := f.n + 1 + i } ∧ objs[i]? = some (blendBody x) := by
  obtain ⟨w, h2⟩ := blendLoop_w f.r.blendList f [] hs
  unfold Fpdf.putBlendModes
  dsimp only
  generalize f.putBlendLoop [] f.r.blendList = q at *
  obtain ⟨g, ls⟩ := q
  dsimp only at *
  subst h2
  refine ⟨_, ⟨w.buf, w.n, w.fix, w.len, w.old, w.new, w.ok, w.rc⟩, by simp, fun i x hx => ?_⟩
  exact ⟨by simp [hx], by simp [hx]⟩

theorem grads_w (f : Fpdf) (hs : f.state = 1) : ∃ objs, W f f.putGradients objs ∧ f.putGradients.r.gradientList.length = f.r.gradientList.length ∧
    ∀ (i : Nat) x, f.r.gradientList[i]? = some x → f.putGradients.r.gradientList[i]? = some { x with objNum := f.n + 2 + 2 * i } ∧
      objs[2 * i]? = (gradBodies x (f.n + 1 + 2 * i))[0]? ∧ objs[2 * i + 1]? = (gradBodies x (f.n + 1 + 2 * i))[1]? := by
  obtain ⟨objs, w, _, h2, h3⟩ := gradLoop_w f.r.gradientList f [] hs
  unfold Fpdf.putGradients
  dsimp only
  generalize f.putGradLoop [] f.r.gradientList = q at *
  obtain ⟨g, ls⟩ := q
  dsimp only at *
  subst h2
  refine ⟨objs, ⟨w.buf, w.n, w.fix, w.len, w.old, w.new, w.ok, w.rc⟩, by simp, fun i x hx => ?_⟩
  exact ⟨by simp [hx], h3 i x hx⟩

/-- What does not change in a stage. -/
structure Same (f g : Fpdf) : Prop where
  state : g.state = 1
  rc : g.m.protect.rc4n ≤ g.n
  images : g.r.images = f.r.images
  templates : g.r.templates = f.r.templates
  compress : g.m.compress = f.m.compress
  holds : ∀ md5 n d b, Holds md5 g.m.protect n d b → Holds md5 f.m.protect n d b

theorem W.same {f g : Fpdf} {o : List Body} (h : W f g o) (hs : f.state = 1) (hr : f.m.protect.rc4n ≤ f.n) : Same f g where
  state := h.state.trans hs
  rc := h.rc hr
  images := h.images
  templates := by
    have := congrArg (fun f : Fpdf => f.r.templates) h.fix
    exact this
  compress := h.meta.1
  holds := fun _ _ _ _ hb => Holds.of_wfix h.fix hb

theorem Same.trans {f g h : Fpdf} (h1 : Same f g) (h2 : Same g h) : Same f h :=
  ⟨h2.state, h2.rc, h2.images.trans h1.images, h2.templates.trans h1.templates, h2.compress.trans h1.compress, fun _ _ _ _ hb => h1.holds _ _ _ _ (h2.holds _ _ _ _ hb)⟩

theorem idx_shift {α} (a b c d e f : List α) {r : List α} {i : Nat} {x : Option α} (h : r[i]? = x) :
    (a ++ (b ++ (c ++ (d ++ (e ++ (f ++ r))))))[a.length + (b.length + (c.length + (d.length + (e.length + (f.length + i)))))]? = x :=
  at_right (at_right (at_right (at_right (at_right (at_right h)))))

/-- The seven stages together. -/
theorem seven_w (E : Ext) {s0 s1 s2 s3 s4 s5 s6 s7 : Fpdf} (d1 : s0.layerPutLayers E = s1) (d2 : s1.putBlendModes = s2) (d3 : s2.putGradients = s3)
    (d4 : s3.putSpotColors E = s4) (d5 : s4.putfonts E = s5) (d6 : s5.putimages E = s6) (d7 : s6.putTemplates E = s7)
    (hs : s0.state = 1) (hr : s0.m.protect.rc4n ≤ s0.n) (he : s7.err = none) : ∃ M, W s0 s7 M ∧ Placed E s0 s7 M := by
  have e6 : s6.err = none := latch_none (by rw [← d7]; exact putTemplates_writes E s6) he
  have e5 : s5.err = none := latch_none (by rw [← d6]; exact putimages_writes E s5) e6
  obtain ⟨o1, w1, c1, h1⟩ := layers_w E s0 hs hr
  have k1 := (layerPutLayers_keep E s0 hs).2
  rw [d1] at w1 c1 h1 k1
  have q1 := w1.same hs hr
  obtain ⟨o2, w2, c2, h2⟩ := blends_w s1 q1.state
  have k2 := (putBlendModes_keep s1 q1.state).2
  rw [d2] at w2 c2 h2 k2
  have q2 := w2.same q1.state q1.rc
  obtain ⟨o3, w3, c3, h3⟩ := grads_w s2 q2.state
  have k3 := (putGradients_keep s2 q2.state).2
  rw [d3] at w3 c3 h3 k3
  have q3 := w3.same q2.state q2.rc
  obtain ⟨o4, w4, h4⟩ := putSpotColors_w E s3 q3.state
  have k4 := (putSpotColors_keep E s3 q3.state).2
  rw [d4] at w4 h4 k4
  have q4 := w4.same q3.state q3.rc
  obtain ⟨o5, w5, h5⟩ := putfonts_w E s4 q4.state (by rw [d5]; exact e5)
  have k5 := (putfonts_keep E s4 q4.state).2
  rw [d5] at w5 h5 k5
  have q5 := w5.same q4.state q4.rc
  obtain ⟨ws, hws, h6⟩ := images_run E s5 q5.state q5.rc
  have w6 := hws.w
  have k6 := (putimages_keep E s5 q5.state).2
  have b6 := hws.blocks
  have m6 := hws.nodup
  have f6 := hws.from_
  have i6 : ∀ k (p : Nat) im, lookup k s5.r.images = some p → s5.r.imgHeap[p]? = some im → ∃ n, (s5.putimages E).r.imgHeap[p]? = some { im with n := n } ∧ (im.i, n) ∈ imgNums s5.n ws := by
    intro k p im h1 h2
    obtain ⟨n, q1, q2⟩ := hws.img k (mem_visit E _ _ _ (lookup_keys h1)) p im h1 h2
    rcases q2 with q2 | ⟨_, q2⟩
    · cases q2
    · exact ⟨n, q1, q2⟩
  clear hws
  generalize ho6 : ws.flatMap (·.2) = o6 at w6 h6
  rw [d6] at w6 h6 k6 i6
  have q6 := w6.same q5.state q5.rc
  obtain ⟨o7, w7, h7, h8, h9⟩ := templates_w E s6 q6.state q6.rc
  have k7 := (putTemplates_keep E s6 q6.state).2
  rw [d7] at w7 h7 h8 k7
  clear he e5 e6 d1 d2 d3 d4 d5 d6 d7
  refine ⟨o1 ++ (o2 ++ (o3 ++ (o4 ++ (o5 ++ (o6 ++ o7))))), w1.trans (w2.trans (w3.trans (w4.trans (w5.trans (w6.trans w7))))), ?_⟩
  have p1 := q1
  have p2 := p1.trans q2
  have p3 := p2.trans q3
  have p4 := p3.trans q4
  have p5 := p4.trans q5
  have p6 := p5.trans q6
  have n1 := w1.n
  have n2 := w2.n
  have n3 := w3.n
  have n4 := w4.n
  have n5 := w5.n
  have n6 := w6.n
  have lay2 : s2.layer.list = s1.layer.list := congrArg Res.layers k2
  have lay3 : s3.layer.list = s2.layer.list := congrArg Res.layers k3
  have lay4 : s4.layer.list = s3.layer.list := congrArg Res.layers k4
  have lay5 : s5.layer.list = s4.layer.list := congrArg Res.layers k5
  have lay6 : s6.layer.list = s5.layer.list := congrArg Res.layers k6
  have lay7 : s7.layer.list = s6.layer.list := congrArg Res.layers k7
  have lay : s7.layer.list = s1.layer.list := by rw [lay7, lay6, lay5, lay4, lay3, lay2]
  have ble1 : s1.r.blendList = s0.r.blendList := congrArg Res.blendList k1
  have ble3 : s3.r.blendList = s2.r.blendList := congrArg Res.blendList k3
  have ble4 : s4.r.blendList = s3.r.blendList := congrArg Res.blendList k4
  have ble5 : s5.r.blendList = s4.r.blendList := congrArg Res.blendList k5
  have ble6 : s6.r.blendList = s5.r.blendList := congrArg Res.blendList k6
  have ble7 : s7.r.blendList = s6.r.blendList := congrArg Res.blendList k7
  have ble : s7.r.blendList = s2.r.blendList := by rw [ble7, ble6, ble5, ble4, ble3]
  have gra1 : s1.r.gradientList = s0.r.gradientList := congrArg Res.gradientList k1
  have gra2 : s2.r.gradientList = s1.r.gradientList := congrArg Res.gradientList k2
  have gra4 : s4.r.gradientList = s3.r.gradientList := congrArg Res.gradientList k4
  have gra5 : s5.r.gradientList = s4.r.gradientList := congrArg Res.gradientList k5
  have gra6 : s6.r.gradientList = s5.r.gradientList := congrArg Res.gradientList k6
  have gra7 : s7.r.gradientList = s6.r.gradientList := congrArg Res.gradientList k7
  have gra : s7.r.gradientList = s3.r.gradientList := by rw [gra7, gra6, gra5, gra4]
  have spo1 : s1.r.spotColorMap = s0.r.spotColorMap := congrArg Res.spotColorMap k1
  have spo2 : s2.r.spotColorMap = s1.r.spotColorMap := congrArg Res.spotColorMap k2
  have spo3 : s3.r.spotColorMap = s2.r.spotColorMap := congrArg Res.spotColorMap k3
  have spo5 : s5.r.spotColorMap = s4.r.spotColorMap := congrArg Res.spotColorMap k5
  have spo6 : s6.r.spotColorMap = s5.r.spotColorMap := congrArg Res.spotColorMap k6
  have spo7 : s7.r.spotColorMap = s6.r.spotColorMap := congrArg Res.spotColorMap k7
  have spo : s7.r.spotColorMap = s4.r.spotColorMap := by rw [spo7, spo6, spo5]
  have spo0 : s3.r.spotColorMap = s0.r.spotColorMap := by rw [spo3, spo2, spo1]
  have fon1 : s1.t.fonts = s0.t.fonts := congrArg Res.fonts k1
  have fon2 : s2.t.fonts = s1.t.fonts := congrArg Res.fonts k2
  have fon3 : s3.t.fonts = s2.t.fonts := congrArg Res.fonts k3
  have fon4 : s4.t.fonts = s3.t.fonts := congrArg Res.fonts k4
  have fon6 : s6.t.fonts = s5.t.fonts := congrArg Res.fonts k6
  have fon7 : s7.t.fonts = s6.t.fonts := congrArg Res.fonts k7
  have fon : s7.t.fonts = s5.t.fonts := by rw [fon7, fon6]
  have fon0 : s4.t.fonts = s0.t.fonts := by rw [fon4, fon3, fon2, fon1]
  have img1 : s1.r.imgHeap = s0.r.imgHeap := congrArg Res.imgHeap k1
  have img2 : s2.r.imgHeap = s1.r.imgHeap := congrArg Res.imgHeap k2
  have img3 : s3.r.imgHeap = s2.r.imgHeap := congrArg Res.imgHeap k3
  have img4 : s4.r.imgHeap = s3.r.imgHeap := congrArg Res.imgHeap k4
  have img5 : s5.r.imgHeap = s4.r.imgHeap := congrArg Res.imgHeap k5
  have img7 : s7.r.imgHeap = s6.r.imgHeap := congrArg Res.imgHeap k7
  have img0 : s5.r.imgHeap = s0.r.imgHeap := by rw [img5, img4, img3, img2, img1]
  have tmp1 : s1.r.templateObjects = s0.r.templateObjects := congrArg Res.templateObjects k1
  have tmp2 : s2.r.templateObjects = s1.r.templateObjects := congrArg Res.templateObjects k2
  have tmp3 : s3.r.templateObjects = s2.r.templateObjects := congrArg Res.templateObjects k3
  have tmp4 : s4.r.templateObjects = s3.r.templateObjects := congrArg Res.templateObjects k4
  have tmp5 : s5.r.templateObjects = s4.r.templateObjects := congrArg Res.templateObjects k5
  have tmp6 : s6.r.templateObjects = s5.r.templateObjects := congrArg Res.templateObjects k6
  have tmp : s6.r.templateObjects = s0.r.templateObjects := by rw [tmp6, tmp5, tmp4, tmp3, tmp2, tmp1]
  have srt : sorted E s6 = sorted E s0 := by
    have hc : s6.m.catalogSort = s0.m.catalogSort := by rw [w6.meta.2, w5.meta.2, w4.meta.2, w3.meta.2, w2.meta.2, w1.meta.2]
    unfold sorted
    rw [hc, p6.templates]
  have kk : s7.k = s6.k := by
    have e := congrArg (fun x : Fpdf => x.k) w7.fix
    exact e
  clear k1 k2 k3 k4 k5 k6 k7
  exact {
    lay := fun i x hx => by
      obtain ⟨c, r1, r2, r3⟩ := h1 i x hx
      exact ⟨c, by rw [lay]; exact r1, at_left r2, r3⟩
    layN := by rw [lay]; exact c1
    ble := fun i x hx => by
      obtain ⟨r1, r2⟩ := h2 i x (by rw [ble1]; exact hx)
      exact ⟨o1.length + i, by rw [ble, r1, n1, show s0.n + o1.length + 1 + i = s0.n + 1 + (o1.length + i) by omega], at_right (at_left r2)⟩
    bleN := by rw [ble, c2, ble1]
    gra := fun i x hx => by
      obtain ⟨r1, r2, r3⟩ := h3 i x (by rw [gra2, gra1]; exact hx)
      have z : (gradBodies x (s2.n + 1 + 2 * i)).length = 2 := rfl
      have l2 : 2 * i < o3.length := (List.getElem?_eq_some_iff.1 (r2.trans (List.getElem?_eq_getElem (by omega)))).1
      have l3 : 2 * i + 1 < o3.length := (List.getElem?_eq_some_iff.1 (r3.trans (List.getElem?_eq_getElem (by omega)))).1
      refine ⟨o1.length + (o2.length + 2 * i), ?_, ?_, ?_⟩
      · rw [gra, r1, n2, n1, show s0.n + o1.length + o2.length + 2 + 2 * i = s0.n + 2 + (o1.length + (o2.length + 2 * i)) by omega]
      · rw [show s0.n + 1 + (o1.length + (o2.length + 2 * i)) = s2.n + 1 + 2 * i by omega, ← r2]
        refine at_right (at_right ?_)
        rw [List.getElem?_append_left l2]
      · rw [show s0.n + 1 + (o1.length + (o2.length + 2 * i)) = s2.n + 1 + 2 * i by omega, ← r3,
          show o1.length + (o2.length + 2 * i) + 1 = o1.length + (o2.length + (2 * i + 1)) by omega]
        refine at_right (at_right ?_)
        rw [List.getElem?_append_left l3]
    graN := by rw [gra, c3, gra2, gra1]
    spo := fun k v hv => by
      obtain ⟨i, r1, r2⟩ := h4 k v (by rw [spo0]; exact hv)
      exact ⟨o1.length + (o2.length + (o3.length + i)), by
        rw [spo, r1, show s3.n + 1 + i = s0.n + 1 + (o1.length + (o2.length + (o3.length + i))) by omega], at_right (at_right (at_right (at_left r2)))⟩
    fon := fun k v hv => by
      obtain ⟨i, t, r1, r2⟩ := h5 k v (by rw [fon0]; exact hv)
      exact ⟨o1.length + (o2.length + (o3.length + (o4.length + i))), t, by
        rw [fon, r1, show s4.n + 1 + i = s0.n + 1 + (o1.length + (o2.length + (o3.length + (o4.length + i)))) by omega], at_right (at_right (at_right (at_right (at_left r2))))⟩
    img := fun k p im hk hp => by
      obtain ⟨i, b, k', p', im', r1, r2, r3, r4, r5, d, b', r6, r7⟩ := h6 k p im (by rw [p5.images]; exact hk) (by rw [img0]; exact hp)
      refine ⟨o1.length + (o2.length + (o3.length + (o4.length + (o5.length + i)))), b, k', p', im', ?_, at_right (at_right (at_right (at_right (at_right (at_left r2))))),
        by rw [← p5.images]; exact r3, by rw [← img0]; exact r4, r5, d, b', r6, ?_⟩
      · rw [img7, r1, show s5.n + 1 + i = s0.n + 1 + (o1.length + (o2.length + (o3.length + (o4.length + (o5.length + i))))) by omega]
      · have := p5.holds _ _ _ _ r7
        rw [show s5.n + 1 + i = s0.n + 1 + (o1.length + (o2.length + (o3.length + (o4.length + (o5.length + i))))) by omega] at this
        exact this
    tem := fun hp k t hk => by
      obtain ⟨i, b, t', r1, r2, r3, d, b', r6, r7⟩ := h7 (by rw [p6.templates]; exact hp) k t (by rw [p6.templates]; exact hk)
      rw [p6.compress] at r6 r7
      refine ⟨o1.length + (o2.length + (o3.length + (o4.length + (o5.length + (o6.length + i))))), b, t', ?_, idx_shift _ _ _ _ _ _ r2, r3, d, b', r6, ?_⟩
      · rw [r1, show s6.n + 1 + i = s0.n + 1 + (o1.length + (o2.length + (o3.length + (o4.length + (o5.length + (o6.length + i)))))) by omega]
      · have := p6.holds _ _ _ _ r7
        rw [show s6.n + 1 + i = s0.n + 1 + (o1.length + (o2.length + (o3.length + (o4.length + (o5.length + (o6.length + i)))))) by omega] at this
        exact this
    ima := by
      have hn : s5.n = s0.n + (o1.length + (o2.length + (o3.length + (o4.length + o5.length)))) := by omega
      rw [hn] at b6 i6
      refine ⟨o1.length + (o2.length + (o3.length + (o4.length + o5.length))), ws, ?_, m6, fun x hx => ?_, fun q b hq => ?_, fun k p im h1 h2 => ?_⟩
      · rw [p5.compress] at b6
        exact Blocks.mono (fun n b c h => p5.holds _ n b c h) ws _ b6
      · obtain ⟨k, _, p, a, b⟩ := f6 x hx
        exact ⟨k, p, by rw [← p5.images]; exact a, by rw [← img0]; exact b⟩
      · rw [ho6] at hq
        have := at_right (l := o1) (at_right (l := o2) (at_right (l := o3) (at_right (l := o4) (at_right (l := o5) (at_left (r := o7) hq)))))
        rw [← this]
        congr 1
        omega
      · obtain ⟨n, a, b⟩ := i6 k p im (by rw [p5.images]; exact h1) (by rw [img0]; exact h2)
        exact ⟨n, by rw [img7]; exact a, b⟩
    tpl := by
      have hn : s6.n = s0.n + (o1.length + (o2.length + (o3.length + (o4.length + (o5.length + o6.length))))) := by omega
      rw [srt, tmp, hn] at h8 h9
      refine ⟨_, h8, fun i t hi => ?_⟩
      obtain ⟨b, b1, len, b', b2, b3⟩ := h9 i t hi
      refine ⟨b, ?_, len, b', ?_, ?_⟩
      · have := idx_shift o1 o2 o3 o4 o5 o6 b1
        rw [← this]
        congr 1
        omega
      · rw [b2, tplText_congr (f := s6) (g := s7) w7.meta.1 kk w7.meta.2 fon7 img7]
      · rw [p6.compress] at b3
        exact p6.holds _ _ _ _ b3 }

theorem mid_w (E : Ext) (f : Fpdf) (hs : (sRoot E f).state = 1) (hr : (sRoot E f).m.protect.rc4n ≤ (sRoot E f).n) (he : (sRes E f).err = none) :
    ∃ M, W (sRoot E f) (sRes E f) M ∧ Placed E (sRoot E f) (sRes E f) M :=
  seven_w E (s1 := sLay E f) (s2 := sBle E f) (s3 := sGra E f) (s4 := sSpo E f) (s5 := sFonts E f) (s6 := sImg E f) rfl rfl rfl rfl rfl rfl rfl hs hr he

end Verif.Proof
