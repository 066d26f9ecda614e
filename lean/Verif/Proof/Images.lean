import Verif.Proof.Resources
import Verif.Proof.PageObjs
/-
The objects of images.
-/
namespace Verif.Proof
open Verif Verif.Model Verif.Spec

/-- The dictionary of image `im` as object `n`, up to its length. -/
def imageDict (n : Nat) (im : ImageInfo) : Bytes :=
  B "<</Type /XObject\n/Subtype /Image\n/Width " ++ intDec (Fpdf.truncRat im.w) ++ B "\n/Height " ++ intDec (Fpdf.truncRat im.h) ++ B "\n" ++
    (if im.cs = B "Indexed" then B "/ColorSpace [/Indexed /DeviceRGB " ++ intDec ((im.pal.length / 3 : Nat) - 1 : Int) ++ B " " ++ natDec (n + 1) ++ B " 0 R]\n"
      else B "/ColorSpace /" ++ im.cs ++ B "\n" ++ (if im.cs = B "DeviceCMYK" then B "/Decode [1 0 1 0 1 0 1 0]\n" else [])) ++
    (B "/BitsPerComponent " ++ natDec im.bpc ++ B "\n") ++
    (if im.f ≠ [] then B "/Filter /" ++ im.f ++ B "\n" else []) ++
    (if im.dp ≠ [] then B "/DecodeParms <<" ++ im.dp ++ B ">>\n" else []) ++
    (if im.trns ≠ [] then B "/Mask [" ++ (im.trns.flatMap fun v => intDec v ++ B " " ++ intDec v ++ B " ") ++ B "]\n" else []) ++
    (if im.smask.isSome then B "/SMask " ++ natDec (n + 1) ++ B " 0 R\n" else [])

theorem Ap.step {f g : Fpdf} {b t : Bytes} (h : Ap f g b) (hs : f.state = 1) (s : Bytes) (e : s ++ [10] = t) : Ap f (g.out s) (b ++ t) := by
  rw [← e]; exact h.out hs s

theorem Ap.opt {f g g' : Fpdf} {b t : Bytes} {c : Prop} [Decidable c] (h : Ap f g b) (h' : Ap f g' (b ++ t)) : Ap f (if c then g' else g) (b ++ if c then t else []) := by
  split
  · exact h'
  · rw [List.append_nil]; exact h

theorem Ap.alt {f g g' : Fpdf} {b t u : Bytes} {c : Prop} [Decidable c] (h : Ap f g (b ++ t)) (h' : Ap f g' (b ++ u)) : Ap f (if c then g else g') (b ++ if c then t else u) := by
  split
  · exact h
  · exact h'

/-- The program that writes it. -/
def imgChain (f : Fpdf) (info : ImageInfo) : Fpdf :=
  let f := f.outs "<</Type /XObject"
  let f := f.outs "/Subtype /Image"
  let f := f.outf "/Width %d" [.d (Fpdf.truncRat info.w)]
  let f := f.outf "/Height %d" [.d (Fpdf.truncRat info.h)]
  let f := if info.cs = B "Indexed" then
      f.outf "/ColorSpace [/Indexed /DeviceRGB %d %d 0 R]" [.d ((info.pal.length / 3 : Nat) - 1 : Int), .d (f.n + 1 : Nat)]
    else
      let f := f.outf "/ColorSpace /%s" [.s info.cs]
      if info.cs = B "DeviceCMYK" then f.outs "/Decode [1 0 1 0 1 0 1 0]" else f
  let f := f.outf "/BitsPerComponent %d" [.d info.bpc]
  let f := if info.f ≠ [] then f.outf "/Filter /%s" [.s info.f] else f
  let f := if info.dp ≠ [] then f.outf "/DecodeParms <<%s>>" [.s info.dp] else f
  let f := if info.trns ≠ [] then f.outf "/Mask [%s]" [.s (info.trns.flatMap fun v => sprintf "%d %d " [.d v, .d v])] else f
  if info.smask.isSome then f.outf "/SMask %d 0 R" [.d (f.n + 1 : Nat)] else f

theorem putImageObj_chain (E : Ext) (f : Fpdf) (im : ImageInfo) :
    f.putImageObj E im = (((imgChain f.newobj im).outf "/Length %d>>" [.d im.data.length]).putstream E.md5 im.data).outs "endobj" := rfl

theorem imgChain_ap (f : Fpdf) (im : ImageInfo) (hs : f.state = 1) : Ap f (imgChain f im) (imageDict f.n im) := by
  unfold imgChain imageDict
  dsimp only
  have h1 := ((Ap.refl f).out hs (B "<</Type /XObject")).out hs (B "/Subtype /Image")
  have h2 := h1.step (t := B "/Width " ++ intDec (Fpdf.truncRat im.w) ++ B "\n") hs (sprintf "/Width %d" [.d (Fpdf.truncRat im.w)])
    (by rw [show sprintf "/Width %d" [.d (Fpdf.truncRat im.w)] = B "/Width " ++ (intDec (Fpdf.truncRat im.w) ++ []) from sprintfB_of_render _ _ _ rfl, List.append_nil]; rfl)
  have h3 := h2.step (t := B "/Height " ++ intDec (Fpdf.truncRat im.h) ++ B "\n") hs (sprintf "/Height %d" [.d (Fpdf.truncRat im.h)])
    (by rw [show sprintf "/Height %d" [.d (Fpdf.truncRat im.h)] = B "/Height " ++ (intDec (Fpdf.truncRat im.h) ++ []) from sprintfB_of_render _ _ _ rfl, List.append_nil]; rfl)
  have e3 : [] ++ (B "<</Type /XObject" ++ [10]) ++ (B "/Subtype /Image" ++ [10]) ++ (B "/Width " ++ intDec (Fpdf.truncRat im.w) ++ B "\n") ++ (B "/Height " ++ intDec (Fpdf.truncRat im.h) ++ B "\n") =
      B "<</Type /XObject\n/Subtype /Image\n/Width " ++ intDec (Fpdf.truncRat im.w) ++ B "\n/Height " ++ intDec (Fpdf.truncRat im.h) ++ B "\n" := by
    rw [show B "<</Type /XObject\n/Subtype /Image\n/Width " = B "<</Type /XObject" ++ [10] ++ B "/Subtype /Image" ++ [10] ++ B "/Width " from rfl,
      show B "\n/Height " = B "\n" ++ B "/Height " from rfl]
    simp only [List.append_assoc, List.nil_append]
  rw [e3] at h3
  change Ap f ((((f.outs "<</Type /XObject").outs "/Subtype /Image").outf "/Width %d" [.d (Fpdf.truncRat im.w)]).outf "/Height %d" [.d (Fpdf.truncRat im.h)]) _ at h3
  generalize (((f.outs "<</Type /XObject").outs "/Subtype /Image").outf "/Width %d" [.d (Fpdf.truncRat im.w)]).outf "/Height %d" [.d (Fpdf.truncRat im.h)] = g3 at h3 ⊢
  generalize B "<</Type /XObject\n/Subtype /Image\n/Width " ++ intDec (Fpdf.truncRat im.w) ++ B "\n/Height " ++ intDec (Fpdf.truncRat im.h) ++ B "\n" = b3 at h3 ⊢
  rw [h3.n]
  have h4 : Ap f (if im.cs = B "Indexed" then
      g3.outf "/ColorSpace [/Indexed /DeviceRGB %d %d 0 R]" [.d ((im.pal.length / 3 : Nat) - 1 : Int), .d (f.n + 1 : Nat)]
    else if im.cs = B "DeviceCMYK" then (g3.outf "/ColorSpace /%s" [.s im.cs]).outs "/Decode [1 0 1 0 1 0 1 0]" else g3.outf "/ColorSpace /%s" [.s im.cs])
    (b3 ++ (if im.cs = B "Indexed" then B "/ColorSpace [/Indexed /DeviceRGB " ++ intDec ((im.pal.length / 3 : Nat) - 1 : Int) ++ B " " ++ natDec (f.n + 1) ++ B " 0 R]\n"
      else B "/ColorSpace /" ++ im.cs ++ B "\n" ++ (if im.cs = B "DeviceCMYK" then B "/Decode [1 0 1 0 1 0 1 0]\n" else []))) := by
    refine Ap.alt (h3.step hs _ ?_) ?_
    · rw [show sprintf "/ColorSpace [/Indexed /DeviceRGB %d %d 0 R]" [.d ((im.pal.length / 3 : Nat) - 1 : Int), .d (f.n + 1 : Nat)] =
        B "/ColorSpace [/Indexed /DeviceRGB " ++ (intDec ((im.pal.length / 3 : Nat) - 1 : Int) ++ (B " " ++ (intDec ((f.n + 1 : Nat) : Int) ++ B " 0 R]"))) from sprintfB_of_render _ _ _ rfl,
        show intDec ((f.n + 1 : Nat) : Int) = natDec (f.n + 1) from intDec_ofNat _, show B " 0 R]\n" = B " 0 R]" ++ [10] from rfl]
      simp only [List.append_assoc]
    · rw [← List.append_assoc]
      have h5 := h3.step (t := B "/ColorSpace /" ++ im.cs ++ B "\n") hs (sprintf "/ColorSpace /%s" [.s im.cs])
        (by rw [show sprintf "/ColorSpace /%s" [.s im.cs] = B "/ColorSpace /" ++ (im.cs ++ []) from sprintfB_of_render _ _ _ rfl, List.append_nil]; rfl)
      exact h5.opt (h5.step hs (B "/Decode [1 0 1 0 1 0 1 0]") rfl)
  revert h4
  generalize (if im.cs = B "Indexed" then B "/ColorSpace [/Indexed /DeviceRGB " ++ intDec ((im.pal.length / 3 : Nat) - 1 : Int) ++ B " " ++ natDec (f.n + 1) ++ B " 0 R]\n"
      else B "/ColorSpace /" ++ im.cs ++ B "\n" ++ (if im.cs = B "DeviceCMYK" then B "/Decode [1 0 1 0 1 0 1 0]\n" else [])) = b4
  generalize (if im.cs = B "Indexed" then g3.outf "/ColorSpace [/Indexed /DeviceRGB %d %d 0 R]" [.d ((im.pal.length / 3 : Nat) - 1 : Int), .d (f.n + 1 : Nat)]
    else if im.cs = B "DeviceCMYK" then (g3.outf "/ColorSpace /%s" [.s im.cs]).outs "/Decode [1 0 1 0 1 0 1 0]" else g3.outf "/ColorSpace /%s" [.s im.cs]) = g4
  intro h4
  have h5 := h4.step (t := B "/BitsPerComponent " ++ natDec im.bpc ++ B "\n") hs (sprintf "/BitsPerComponent %d" [.d im.bpc])
    (by rw [show sprintf "/BitsPerComponent %d" [.d im.bpc] = B "/BitsPerComponent " ++ (intDec (im.bpc : Int) ++ []) from sprintfB_of_render _ _ _ rfl,
          show intDec ((im.bpc : Nat) : Int) = natDec im.bpc from intDec_ofNat _, List.append_nil]; rfl)
  have h6 := h5.opt (c := im.f ≠ []) (h5.step (t := B "/Filter /" ++ im.f ++ B "\n") hs (sprintf "/Filter /%s" [.s im.f])
    (by rw [show sprintf "/Filter /%s" [.s im.f] = B "/Filter /" ++ (im.f ++ []) from sprintfB_of_render _ _ _ rfl, List.append_nil]; rfl))
  have h7 := h6.opt (c := im.dp ≠ []) (h6.step (t := B "/DecodeParms <<" ++ im.dp ++ B ">>\n") hs (sprintf "/DecodeParms <<%s>>" [.s im.dp])
    (by rw [show sprintf "/DecodeParms <<%s>>" [.s im.dp] = B "/DecodeParms <<" ++ (im.dp ++ B ">>") from sprintfB_of_render _ _ _ rfl, show B ">>\n" = B ">>" ++ [10] from rfl]
        simp only [List.append_assoc]))
  have em : (im.trns.flatMap fun v => sprintf "%d %d " [.d v, .d v]) = im.trns.flatMap fun v => intDec v ++ B " " ++ intDec v ++ B " " := by
    congr 1
    funext v
    rw [show sprintf "%d %d " [.d v, .d v] = (intDec v ++ (B " " ++ (intDec v ++ B " "))) from sprintfB_of_render _ _ _ rfl]
    simp only [List.append_assoc]
  rw [em]
  have h8 := h7.opt (c := im.trns ≠ []) (h7.step (t := B "/Mask [" ++ (im.trns.flatMap fun v => intDec v ++ B " " ++ intDec v ++ B " ") ++ B "]\n") hs
    (sprintf "/Mask [%s]" [.s (im.trns.flatMap fun v => intDec v ++ B " " ++ intDec v ++ B " ")])
    (by rw [show sprintf "/Mask [%s]" [.s (im.trns.flatMap fun v => intDec v ++ B " " ++ intDec v ++ B " ")] =
          B "/Mask [" ++ ((im.trns.flatMap fun v => intDec v ++ B " " ++ intDec v ++ B " ") ++ B "]") from sprintfB_of_render _ _ _ rfl, show B "]\n" = B "]" ++ [10] from rfl]
        simp only [List.append_assoc]))
  change Ap f (if im.trns ≠ [] then (if im.dp ≠ [] then (if im.f ≠ [] then (g4.outf "/BitsPerComponent %d" [.d im.bpc]).outf "/Filter /%s" [.s im.f] else g4.outf "/BitsPerComponent %d" [.d im.bpc]).outf "/DecodeParms <<%s>>" [.s im.dp]
    else (if im.f ≠ [] then (g4.outf "/BitsPerComponent %d" [.d im.bpc]).outf "/Filter /%s" [.s im.f] else g4.outf "/BitsPerComponent %d" [.d im.bpc])).outf "/Mask [%s]" [.s (im.trns.flatMap fun v => intDec v ++ B " " ++ intDec v ++ B " ")]
    else (if im.dp ≠ [] then (if im.f ≠ [] then (g4.outf "/BitsPerComponent %d" [.d im.bpc]).outf "/Filter /%s" [.s im.f] else g4.outf "/BitsPerComponent %d" [.d im.bpc]).outf "/DecodeParms <<%s>>" [.s im.dp]
    else (if im.f ≠ [] then (g4.outf "/BitsPerComponent %d" [.d im.bpc]).outf "/Filter /%s" [.s im.f] else g4.outf "/BitsPerComponent %d" [.d im.bpc]))) _ at h8
  revert h8
  generalize (if im.trns ≠ [] then (if im.dp ≠ [] then (if im.f ≠ [] then (g4.outf "/BitsPerComponent %d" [.d im.bpc]).outf "/Filter /%s" [.s im.f] else g4.outf "/BitsPerComponent %d" [.d im.bpc]).outf "/DecodeParms <<%s>>" [.s im.dp]
    else (if im.f ≠ [] then (g4.outf "/BitsPerComponent %d" [.d im.bpc]).outf "/Filter /%s" [.s im.f] else g4.outf "/BitsPerComponent %d" [.d im.bpc])).outf "/Mask [%s]" [.s (im.trns.flatMap fun v => intDec v ++ B " " ++ intDec v ++ B " ")]
    else (if im.dp ≠ [] then (if im.f ≠ [] then (g4.outf "/BitsPerComponent %d" [.d im.bpc]).outf "/Filter /%s" [.s im.f] else g4.outf "/BitsPerComponent %d" [.d im.bpc]).outf "/DecodeParms <<%s>>" [.s im.dp]
    else (if im.f ≠ [] then (g4.outf "/BitsPerComponent %d" [.d im.bpc]).outf "/Filter /%s" [.s im.f] else g4.outf "/BitsPerComponent %d" [.d im.bpc]))) = g8
  intro h8
  rw [h8.n]
  exact h8.opt (c := im.smask.isSome = true) (h8.step (t := B "/SMask " ++ natDec (f.n + 1) ++ B " 0 R\n") hs (sprintf "/SMask %d 0 R" [.d (f.n + 1 : Nat)])
    (by rw [show sprintf "/SMask %d 0 R" [.d (f.n + 1 : Nat)] = B "/SMask " ++ (intDec ((f.n + 1 : Nat) : Int) ++ B " 0 R") from sprintfB_of_render _ _ _ rfl,
          show intDec ((f.n + 1 : Nat) : Int) = natDec (f.n + 1) from intDec_ofNat _, show B " 0 R\n" = B " 0 R" ++ [10] from rfl]
        simp only [List.append_assoc]))

/-- Object `n` holds the image `im`. -/
def ImgFull (E : Ext) (pr : Protect) (n : Nat) (im : ImageInfo) (b : Body) : Prop :=
  ∃ len b', b = .stream (imageDict n im ++ len) b' ∧ Holds E.md5 pr n im.data b'

theorem putImageObj_full (E : Ext) (f : Fpdf) (im : ImageInfo) (hs : f.state = 1) (hr : f.m.protect.rc4n ≤ f.n) :
    ∃ b, W f (f.putImageObj E im) [b] ∧ ImgFull E f.m.protect (f.n + 1) im b := by
  have hs1 : f.newobj.state = 1 := (newobj_state f).trans hs
  rw [putImageObj_chain]
  have h1 := imgChain_ap f.newobj im hs1
  rw [(newobj_spec f hs).2.1] at h1
  generalize imgChain f.newobj im = g at h1 ⊢
  have hd : Declares (sprintf "/Length %d>>" [.d (im.data.length : Nat)] ++ [10]) im.data.length := len_decl (p := []) (c := 0x3E) (q := [0x3E]) (sprintfB_of_render _ _ _ rfl) rfl
  have h2 := h1.out hs1 (sprintf "/Length %d>>" [.d (im.data.length : Nat)])
  obtain ⟨b', w, hh⟩ := W.streamEq E.md5 hs h2.toOut (Declares_left hd _) (by rw [h2.m, newobj_protect]) hr
  exact ⟨_, w, _, b', rfl, hh⟩

/-- The soft mask of an image. -/
def maskOf (im : ImageInfo) : Option ImageInfo :=
  match im.smask with
  | some sm => if sm.length > 0 then some { w := im.w, h := im.h, cs := B "DeviceGray", bpc := 8, f := im.f, data := sm, dp := sprintf "/Predictor 15 /Colors 1 /BitsPerComponent 8 /Columns %d" [.d (Fpdf.truncRat im.w)] } else none
  | none => none

/-- The objects of an image, the first of them object `n`: the image, its mask and its palette. -/
def ImgBlock (E : Ext) (compress : Bool) (pr : Protect) (n : Nat) (im : ImageInfo) (objs : List Body) : Prop :=
  ∃ b ms ps, objs = b :: (ms ++ ps) ∧ ImgFull E pr n im b ∧
    ((maskOf im = none ∧ ms = []) ∨ ∃ m c, maskOf im = some m ∧ ms = [c] ∧ ImgFull E pr (n + 1) m c) ∧
    ((im.cs ≠ B "Indexed" ∧ ps = []) ∨ im.cs = B "Indexed" ∧ ∃ c, ps = [.stream (contentDict E compress im.pal) c] ∧ Holds E.md5 pr (n + 1 + ms.length) (contentData E compress im.pal) c)

theorem ImgFull.of_wfix {E : Ext} {f g : Fpdf} (h : wfix g = wfix f) {n : Nat} {im : ImageInfo} {b : Body} (hb : ImgFull E g.m.protect n im b) : ImgFull E f.m.protect n im b := by
  obtain ⟨len, b', h1, h2⟩ := hb
  exact ⟨len, b', h1, Holds.of_wfix h h2⟩

theorem putimage_mask (E : Ext) (f : Fpdf) (im : ImageInfo) : f.putimage E im =
    let g := match maskOf im with | some m => (f.putImageObj E im).putImageObj E m | none => f.putImageObj E im
    if im.cs = B "Indexed" then g.putContent E im.pal else g := by
  unfold Fpdf.putimage maskOf
  cases im.smask with
  | none => rfl
  | some sm =>
    dsimp only
    by_cases h : sm.length > 0
    · rw [if_pos h, if_pos h]
    · rw [if_neg h, if_neg h]

theorem putimage_full (E : Ext) (f : Fpdf) (im : ImageInfo) (hs : f.state = 1) (hr : f.m.protect.rc4n ≤ f.n) :
    ∃ objs, W f (f.putimage E im) objs ∧ ImgBlock E f.m.compress f.m.protect (f.n + 1) im objs := by
  rw [putimage_mask]
  obtain ⟨b, w1, h1⟩ := putImageObj_full E f im hs hr
  generalize f.putImageObj E im = g1 at w1 ⊢
  have mid : ∃ ms, W f (match maskOf im with | some m => g1.putImageObj E m | none => g1) (b :: ms) ∧
      ((maskOf im = none ∧ ms = []) ∨ ∃ m c, maskOf im = some m ∧ ms = [c] ∧ ImgFull E f.m.protect (f.n + 1 + 1) m c) := by
    cases maskOf im with
    | none => exact ⟨[], w1, .inl ⟨rfl, rfl⟩⟩
    | some m =>
      obtain ⟨c, w2, h2⟩ := putImageObj_full E g1 m (w1.state.trans hs) (w1.rc hr)
      refine ⟨[c], w1.trans w2, .inr ⟨m, c, rfl, rfl, ?_⟩⟩
      have hn : g1.n = f.n + 1 := w1.n
      rw [hn] at h2
      exact ImgFull.of_wfix w1.fix h2
  obtain ⟨ms, w2, h2⟩ := mid
  dsimp only
  generalize (match maskOf im with | some m => g1.putImageObj E m | none => g1) = g2 at w2 ⊢
  by_cases hi : im.cs = B "Indexed"
  · rw [if_pos hi]
    obtain ⟨c, w3, h3⟩ := putContent_w E g2 (w2.state.trans hs) (w2.rc hr) im.pal
    have hc : g2.m.compress = f.m.compress := w2.meta.1
    rw [hc] at w3 h3
    have hn : g2.n = f.n + (ms.length + 1) := w2.n
    rw [hn, show f.n + (ms.length + 1) + 1 = f.n + 1 + 1 + ms.length by omega] at h3
    exact ⟨_, w2.trans w3, b, ms, _, rfl, h1, h2, .inr ⟨hi, c, rfl, Holds.of_wfix w2.fix h3⟩⟩
  · rw [if_neg hi]
    exact ⟨_, w2, b, ms, [], by rw [List.append_nil], h1, h2, .inl ⟨hi, rfl⟩⟩

/-- The blocks of several images, after object `n`. -/
def Blocks (E : Ext) (compress : Bool) (pr : Protect) : Nat → List (ImageInfo × List Body) → Prop
  | _, [] => True
  | n, x :: r => ImgBlock E compress pr (n + 1) x.1 x.2 ∧ Blocks E compress pr (n + x.2.length) r

/-- The numbers of the images. -/
def imgNums : Nat → List (ImageInfo × List Body) → List (Bytes × Nat)
  | _, [] => []
  | n, x :: r => (x.1.i, n + 1) :: imgNums (n + x.2.length) r

theorem imgNums_keys (n : Nat) (l : List (ImageInfo × List Body)) : (imgNums n l).map (·.1) = l.map (·.1.i) := by
  induction l generalizing n with
  | nil => rfl
  | cons a r ih => unfold imgNums; rw [List.map_cons, ih]; rfl

theorem ImgBlock.len {E : Ext} {c : Bool} {pr : Protect} {n : Nat} {im : ImageInfo} {o : List Body} (h : ImgBlock E c pr n im o) : 0 < o.length := by
  obtain ⟨b, ms, ps, rfl, _⟩ := h
  simp

theorem imgNums_lt {E : Ext} {c : Bool} {pr : Protect} : ∀ (l : List (ImageInfo × List Body)) (n : Nat) (x : Bytes × Nat), x ∈ imgNums n l → n < x.2
  | [], _, _, h => by cases h
  | a :: r, n, x, h => by
    unfold imgNums at h
    rcases List.mem_cons.1 h with rfl | h
    · exact Nat.lt_succ_self n
    · have := imgNums_lt (E := E) (c := c) (pr := pr) r _ x h
      omega

/-- The numbers are different. -/
theorem imgNums_nodup {E : Ext} {c : Bool} {pr : Protect} : ∀ (l : List (ImageInfo × List Body)) (n : Nat), Blocks E c pr n l → ((imgNums n l).map (·.2)).Nodup
  | [], _, _ => List.nodup_nil
  | a :: r, n, h => by
    unfold imgNums
    rw [List.map_cons]
    refine List.nodup_cons.2 ⟨fun hm => ?_, imgNums_nodup r _ h.2⟩
    obtain ⟨x, h1, h2⟩ := List.mem_map.1 hm
    have := imgNums_lt (E := E) (c := c) (pr := pr) r _ x h1
    have := h.1.len
    simp only at h2
    omega

/-- Where the objects of an image are. -/
theorem Blocks.find {E : Ext} {c : Bool} {pr : Protect} : ∀ (l : List (ImageInfo × List Body)) (n : Nat), Blocks E c pr n l → ∀ i m, (i, m) ∈ imgNums n l →
    ∃ im o j, (im, o) ∈ l ∧ im.i = i ∧ m = n + 1 + j ∧ ImgBlock E c pr m im o ∧ ∀ (q : Nat) b, o[q]? = some b → (l.flatMap (·.2))[j + q]? = some b
  | [], _, _ => by intro i m h; cases h
  | a :: r, n, h => by
    intro i m hm
    unfold imgNums at hm
    rcases List.mem_cons.1 hm with e | hm
    · cases e
      refine ⟨a.1, a.2, 0, List.mem_cons_self, rfl, rfl, h.1, fun q b hq => ?_⟩
      rw [List.flatMap_cons, Nat.zero_add, List.getElem?_append_left (List.getElem?_eq_some_iff.1 hq).1]
      exact hq
    · obtain ⟨im, o, j, h1, h2, h3, h4, h5⟩ := Blocks.find r _ h.2 i m hm
      refine ⟨im, o, a.2.length + j, List.mem_cons_of_mem _ h1, h2, by omega, h4, fun q b hq => ?_⟩
      rw [List.flatMap_cons, List.getElem?_append_right (by omega), ← h5 q b hq]
      congr 1
      omega

theorem ImgBlock.of_wfix {E : Ext} {f g : Fpdf} (h : wfix g = wfix f) {c : Bool} {n : Nat} {im : ImageInfo} {o : List Body} (hb : ImgBlock E c g.m.protect n im o) : ImgBlock E c f.m.protect n im o := by
  obtain ⟨b, ms, ps, h1, h2, h3, h4⟩ := hb
  refine ⟨b, ms, ps, h1, h2.of_wfix h, ?_, ?_⟩
  · rcases h3 with h3 | ⟨m, d, a, b, x⟩
    · exact .inl h3
    · exact .inr ⟨m, d, a, b, x.of_wfix h⟩
  · rcases h4 with h4 | ⟨a, d, b, x⟩
    · exact .inl h4
    · exact .inr ⟨a, d, b, Holds.of_wfix h x⟩

theorem Blocks.of_wfix {E : Ext} {f g : Fpdf} (h : wfix g = wfix f) {c : Bool} : ∀ (l : List (ImageInfo × List Body)) (n : Nat), Blocks E c g.m.protect n l → Blocks E c f.m.protect n l
  | [], _, _ => trivial
  | _ :: r, _, hb => ⟨hb.1.of_wfix h, Blocks.of_wfix h r _ hb.2⟩

theorem ImgFull.mono {E : Ext} {pr pr' : Protect} (h : ∀ n b c, Holds E.md5 pr n b c → Holds E.md5 pr' n b c) {n : Nat} {im : ImageInfo} {b : Body} (hb : ImgFull E pr n im b) : ImgFull E pr' n im b := by
  obtain ⟨len, b', h1, h2⟩ := hb
  exact ⟨len, b', h1, h _ _ _ h2⟩

theorem Blocks.mono {E : Ext} {pr pr' : Protect} (h : ∀ n b c, Holds E.md5 pr n b c → Holds E.md5 pr' n b c) {c : Bool} :
    ∀ (l : List (ImageInfo × List Body)) (n : Nat), Blocks E c pr n l → Blocks E c pr' n l
  | [], _, _ => trivial
  | _ :: r, _, hb => by
    refine ⟨?_, Blocks.mono h r _ hb.2⟩
    obtain ⟨b, ms, ps, h1, h2, h3, h4⟩ := hb.1
    refine ⟨b, ms, ps, h1, h2.mono h, ?_, ?_⟩
    · rcases h3 with h3 | ⟨m, d, a, b, x⟩
      · exact .inl h3
      · exact .inr ⟨m, d, a, b, x.mono h⟩
    · rcases h4 with h4 | ⟨a, d, b, x⟩
      · exact .inl h4
      · exact .inr ⟨a, d, b, h _ _ _ x⟩

/-- What writing the images with the names `l` does, when `ins` are those already written: the images `ws` are written, each with an ID of its own, and every image has the number of the one
written with its ID. -/
structure ImgRun (E : Ext) (l : List Bytes) (f g : Fpdf) (ins : List (Bytes × Nat)) (ws : List (ImageInfo × List Body)) : Prop where
  w : W f g (ws.flatMap (·.2))
  blocks : Blocks E f.m.compress f.m.protect f.n ws
  nodup : (ws.map (·.1.i)).Nodup
  fresh : ∀ x ∈ ws, lookup x.1.i ins = none
  from_ : ∀ x ∈ ws, ∃ k ∈ l, ∃ p, lookup k f.r.images = some p ∧ f.r.imgHeap[p]? = some x.1
  other : ∀ p, (∀ k ∈ l, lookup k f.r.images ≠ some p) → g.r.imgHeap[p]? = f.r.imgHeap[p]?
  img : ∀ k ∈ l, ∀ p im, lookup k f.r.images = some p → f.r.imgHeap[p]? = some im → ∃ n, g.r.imgHeap[p]? = some { im with n := n } ∧
    (lookup im.i ins = some n ∨ lookup im.i ins = none ∧ (im.i, n) ∈ imgNums f.n ws)

theorem imgLoop_run (E : Ext) (l : List Bytes) : ∀ (f : Fpdf) (ins : List (Bytes × Nat)), f.state = 1 → f.m.protect.rc4n ≤ f.n →
    ∃ ws, ImgRun E l f (Fpdf.putImagesLoop E l f ins) ins ws := by
  induction l with
  | nil => intro f ins hs hr; exact ⟨[], W.refl f, trivial, List.nodup_nil, by simp, by simp, fun _ _ => rfl, fun k hk => absurd hk (by simp)⟩
  | cons k r ih =>
    intro f ins hs hr
    unfold Fpdf.putImagesLoop
    have skip : (∀ p, lookup k f.r.images = some p → f.r.imgHeap[p]? = none) → ∃ ws, ImgRun E (k :: r) f (Fpdf.putImagesLoop E r f ins) ins ws := by
      intro hno
      obtain ⟨ws, h⟩ := ih f ins hs hr
      refine ⟨ws, h.w, h.blocks, h.nodup, h.fresh, fun x hx => ?_, fun p hp => h.other p fun k' hk' => hp k' (List.mem_cons_of_mem _ hk'), fun k' hk' p im h1 h2 => ?_⟩
      · obtain ⟨k', a, b⟩ := h.from_ x hx
        exact ⟨k', List.mem_cons_of_mem _ a, b⟩
      · rcases List.mem_cons.1 hk' with rfl | hk'
        · rw [hno p h1] at h2; cases h2
        · exact h.img k' hk' p im h1 h2
    cases hk : lookup k f.r.images with
    | none => exact skip fun p hp => by rw [hk] at hp; cases hp
    | some ptr =>
      dsimp only
      cases hi : f.r.imgHeap[ptr]? with
      | none => exact skip fun p hp => by rw [hk] at hp; cases hp; exact hi
      | some info =>
        dsimp only
        -- the rest of the loop, started in a document `g` whose image `ptr` has number `num`
        have go : ∀ (g : Fpdf) (num : Nat) (ins' : List (Bytes × Nat)) (w0 : List (ImageInfo × List Body)), W f g (w0.flatMap (·.2)) →
            (∀ q, g.r.imgHeap[q]? = if q = ptr then (f.r.imgHeap[q]?).map (fun i => { i with n := num }) else f.r.imgHeap[q]?) →
            lookup info.i ins' = some num → (∀ h, h ≠ info.i → lookup h ins' = lookup h ins) →
            ((lookup info.i ins = some num ∧ w0 = []) ∨ lookup info.i ins = none ∧ num = f.n + 1 ∧ ∃ o, w0 = [(info, o)] ∧ ImgBlock E f.m.compress f.m.protect (f.n + 1) info o) →
            ∃ ws, ImgRun E (k :: r) f (Fpdf.putImagesLoop E r g ins') ins ws := by
          intro g num ins' w0 w hheap hnum hoth hsrc
          obtain ⟨ws, h⟩ := ih g ins' (w.state.trans hs) (w.rc hr)
          have hims : g.r.images = f.r.images := w.images
          have hc : g.m.compress = f.m.compress := w.meta.1
          have hsame : ∀ (q : Nat) im, f.r.imgHeap[q]? = some im → ∃ im2, g.r.imgHeap[q]? = some im2 ∧ SameImg im im2 ∧ (q = ptr → im2.n = num) := by
            intro q im hq
            rw [hheap q]
            by_cases hqp : q = ptr
            · rw [if_pos hqp, hq]; exact ⟨_, rfl, ⟨num, rfl⟩, fun _ => rfl⟩
            · rw [if_neg hqp]; exact ⟨im, hq, SameImg.refl im, fun x => absurd x hqp⟩
          have hne : ∀ x ∈ ws, x.1.i ≠ info.i := by
            intro x hx he
            have := h.fresh x hx
            rw [he, hnum] at this
            cases this
          have hold : lookup info.i ins = none ∨ w0 = [] := hsrc.elim (fun h => .inr h.2) (fun h => .inl h.1)
          have hgn : g.n = f.n + (w0.flatMap (·.2)).length := w.n
          -- the numbers of the two parts
          have hb0 : Blocks E f.m.compress f.m.protect f.n (w0 ++ ws) ∧ imgNums f.n (w0 ++ ws) = imgNums f.n w0 ++ imgNums g.n ws := by
            have hb : Blocks E f.m.compress f.m.protect g.n ws := by
              have := Blocks.of_wfix w.fix ws _ h.blocks
              rwa [hc] at this
            rcases hsrc with ⟨_, rfl⟩ | ⟨_, _, o, rfl, ho⟩
            · rw [show g.n = f.n from hgn] at hb ⊢
              exact ⟨hb, rfl⟩
            · have : g.n = f.n + o.length := by rw [hgn]; simp
              rw [this] at hb ⊢
              exact ⟨⟨ho, hb⟩, rfl⟩
          have fin : ∀ p im, f.r.imgHeap[p]? = some im → (∃ k' ∈ r, lookup k' f.r.images = some p) ∨ p = ptr → ∃ n, (Fpdf.putImagesLoop E r g ins').r.imgHeap[p]? = some { im with n := n } ∧
              (lookup im.i ins = some n ∨ lookup im.i ins = none ∧ (im.i, n) ∈ imgNums f.n (w0 ++ ws)) := by
            intro p im hp hor
            obtain ⟨im2, g1, g2, g3⟩ := hsame p im hp
            have main : ∃ n, (Fpdf.putImagesLoop E r g ins').r.imgHeap[p]? = some { im with n := n } ∧ (lookup im.i ins' = some n ∨ lookup im.i ins' = none ∧ (im.i, n) ∈ imgNums g.n ws) := by
              by_cases hex : ∃ k' ∈ r, lookup k' f.r.images = some p
              · obtain ⟨k', hk', hl'⟩ := hex
                obtain ⟨n, q1, q2⟩ := h.img k' hk' p im2 (by rw [hims]; exact hl') g1
                refine ⟨n, ?_, ?_⟩
                · obtain ⟨m, rfl⟩ := g2; exact q1
                · rw [g2.i] at q2; exact q2
              · rcases hor with hor | hor
                · exact absurd hor hex
                · have hoth2 := h.other p (by rw [hims]; intro k' hk' hl'; exact hex ⟨k', hk', hl'⟩)
                  refine ⟨num, ?_, ?_⟩
                  · rw [hoth2, g1]
                    have := g3 hor
                    obtain ⟨m, rfl⟩ := g2
                    simp only at this
                    rw [this]
                  · subst hor
                    rw [hi] at hp; cases hp
                    exact .inl hnum
            obtain ⟨n, m1, m2⟩ := main
            refine ⟨n, m1, ?_⟩
            rw [hb0.2]
            by_cases hii : im.i = info.i
            · rw [hii] at m2 ⊢
              rw [hnum] at m2
              rcases m2 with m2 | ⟨m2, _⟩
              · cases m2
                rcases hsrc with ⟨hs1, _⟩ | ⟨hs1, hs2, o, rfl, _⟩
                · exact .inl hs1
                · refine .inr ⟨hs1, List.mem_append_left _ ?_⟩
                  rw [hs2]
                  exact List.mem_cons_self
              · cases m2
            · rw [hoth _ hii] at m2
              rcases m2 with m2 | ⟨m2, m3⟩
              · exact .inl m2
              · exact .inr ⟨m2, List.mem_append_right _ m3⟩
          refine ⟨w0 ++ ws, ?_, hb0.1, ?_, ?_, ?_, ?_, ?_⟩
          · rw [List.flatMap_append]; exact w.trans h.w
          · rw [List.map_append]
            rcases hsrc with ⟨_, rfl⟩ | ⟨_, _, o, rfl, ho⟩
            · exact h.nodup
            · refine List.nodup_cons.2 ⟨fun hm => ?_, h.nodup⟩
              obtain ⟨x, a, b⟩ := List.mem_map.1 hm
              exact hne x a b
          · intro x hx
            rcases List.mem_append.1 hx with hx | hx
            · rcases hsrc with ⟨_, rfl⟩ | ⟨hs1, _, o, rfl, ho⟩
              · cases hx
              · rw [List.mem_singleton.1 hx]; exact hs1
            · rw [← hoth _ (hne x hx)]; exact h.fresh x hx
          · intro x hx
            rcases List.mem_append.1 hx with hx | hx
            · rcases hsrc with ⟨_, rfl⟩ | ⟨hs1, _, o, rfl, ho⟩
              · cases hx
              · rw [List.mem_singleton.1 hx]; exact ⟨k, List.mem_cons_self, ptr, hk, hi⟩
            · obtain ⟨k', a, p, b, c⟩ := h.from_ x hx
              refine ⟨k', List.mem_cons_of_mem _ a, p, by rw [← hims]; exact b, ?_⟩
              rw [hheap p] at c
              by_cases hpp : p = ptr
              · rw [if_pos hpp, hpp, hi] at c
                exfalso
                have := Option.some.inj c
                exact hne x hx (by rw [← this])
              · rw [if_neg hpp] at c; exact c
          · intro p hp
            rw [h.other p (by rw [hims]; exact fun k' hk' => hp k' (List.mem_cons_of_mem _ hk')), hheap p, if_neg]
            intro hpp
            exact hp k List.mem_cons_self (by rw [hk, hpp])
          · intro k' hk' p im h1 h2
            apply fin p im h2
            rcases List.mem_cons.1 hk' with rfl | hk'
            · right; rw [hk] at h1; exact (Option.some.inj h1).symm
            · exact .inl ⟨k', hk', h1⟩
        cases hin : lookup info.i ins with
        | some n => exact go _ n ins [] ((W.refl f).setImg ptr n) (setImgN_get f ptr n) hin (fun _ _ => rfl) (.inl ⟨hin, rfl⟩)
        | none =>
          dsimp only
          obtain ⟨o, w1, h1⟩ := putimage_full E f info hs hr
          refine go _ (f.n + 1) _ [(info, o)] ?_ ?_ (lookup_insert_self _ _ _) (fun h hh => lookup_insert_ne _ _ hh) (.inr ⟨hin, rfl, o, rfl, h1⟩)
          · simpa using w1.setImg ptr (f.n + 1)
          · intro q
            rw [setImgN_get, heap_same (putimage_kp E f info) hs]

theorem ImgFull.obj {E : Ext} {pr : Protect} {n : Nat} {im : ImageInfo} {b : Body} (h : ImgFull E pr n im b) : ImgObj E pr n im b := by
  obtain ⟨len, b', rfl, h2⟩ := h
  unfold imageDict
  generalize (if im.cs = B "Indexed" then _ else _ : Bytes) = x1
  generalize B "/BitsPerComponent " ++ natDec im.bpc ++ B "\n" = x2
  generalize (if im.f ≠ [] then _ else _ : Bytes) = x3
  generalize (if im.dp ≠ [] then _ else _ : Bytes) = x4
  generalize (if im.trns ≠ [] then _ else _ : Bytes) = x5
  generalize (if im.smask.isSome then _ else _ : Bytes) = x6
  exact ⟨x1 ++ (x2 ++ (x3 ++ (x4 ++ (x5 ++ (x6 ++ len))))), b', by simp only [List.append_assoc], h2⟩

/-- The images of a document. -/
theorem images_run (E : Ext) (f : Fpdf) (hs : f.state = 1) (hr : f.m.protect.rc4n ≤ f.n) :
    ∃ ws, ImgRun E (visit E f.m.catalogSort 6 (keys f.r.images) f.imgWidthLe) f (f.putimages E) [] ws ∧
      ∀ k p im, lookup k f.r.images = some p → f.r.imgHeap[p]? = some im → ∃ i b k' p' im', (f.putimages E).r.imgHeap[p]? = some { im with n := f.n + 1 + i } ∧
      (ws.flatMap (·.2))[i]? = some b ∧ lookup k' f.r.images = some p' ∧ f.r.imgHeap[p']? = some im' ∧ im'.i = im.i ∧ ImgObj E f.m.protect (f.n + 1 + i) im' b := by
  unfold Fpdf.putimages
  obtain ⟨ws, h⟩ := imgLoop_run E (visit E f.m.catalogSort 6 (keys f.r.images) f.imgWidthLe) f [] hs hr
  refine ⟨ws, h, fun k p im h1 h2 => ?_⟩
  obtain ⟨n, q1, q2⟩ := h.img k (mem_visit E _ _ _ (lookup_keys h1)) p im h1 h2
  rcases q2 with q2 | ⟨_, q2⟩
  · cases q2
  · obtain ⟨im', o, j, r1, r2, rfl, ⟨b, ms, ps, rfl, r4, _⟩, r5⟩ := Blocks.find ws _ h.blocks _ _ q2
    obtain ⟨k', _, p', s2, s3⟩ := h.from_ _ r1
    refine ⟨j, b, k', p', im', q1, r5 0 b rfl, s2, s3, r2, r4.obj⟩

end Verif.Proof
