import Verif.Proof.OutlineObjs
import Verif.Proof.ResEmits
import Verif.Spec.Resources
import Mathlib.Tactic.ByContra
/-
The resources written: the objects of layers, blend modes, gradients, spot colours, fonts, images and templates, and the resource dictionary.
-/
namespace Verif.Proof
open Verif Verif.Model Verif.Spec

/-- Only the buffer grows, by `b`. -/
def Ap (f g : Fpdf) (b : Bytes) : Prop := g = { f with buffer := f.buffer ++ b }

theorem Ap.refl (f : Fpdf) : Ap f f [] := by unfold Ap; rw [List.append_nil]
theorem Ap.trans {f g h : Fpdf} {a b : Bytes} (h1 : Ap f g a) (h2 : Ap g h b) : Ap f h (a ++ b) := by
  unfold Ap at *; subst h1; subst h2; simp only [List.append_assoc]
theorem Ap.out {f g : Fpdf} {b : Bytes} (h : Ap f g b) (hs : f.state = 1) (s : Bytes) : Ap f (g.out s) (b ++ (s ++ [10])) := by
  unfold Ap at *
  subst h
  unfold Fpdf.out
  rw [if_neg (show ¬ f.state = 2 by rw [hs]; decide)]
  simp only [List.append_assoc]
theorem Ap.toOut {f g : Fpdf} {b : Bytes} (h : Ap f g b) : Out f g b := by unfold Ap at h; subst h; exact ⟨rfl, rfl, id⟩
theorem Ap.m {f g : Fpdf} {b : Bytes} (h : Ap f g b) : g.m = f.m := by unfold Ap at h; subst h; rfl
theorem Ap.r {f g : Fpdf} {b : Bytes} (h : Ap f g b) : g.r = f.r := by unfold Ap at h; subst h; rfl
theorem Ap.t {f g : Fpdf} {b : Bytes} (h : Ap f g b) : g.t = f.t := by unfold Ap at h; subst h; rfl
theorem Ap.n {f g : Fpdf} {b : Bytes} (h : Ap f g b) : g.n = f.n := by unfold Ap at h; subst h; rfl
theorem Ap.state {f g : Fpdf} {b : Bytes} (h : Ap f g b) : g.state = f.state := by unfold Ap at h; subst h; rfl
theorem Ap.layer {f g : Fpdf} {b : Bytes} (h : Ap f g b) : g.layer = f.layer := by unfold Ap at h; subst h; rfl

/-- `Ap` for some text. -/
def Apx (f g : Fpdf) : Prop := ∃ b, Ap f g b
theorem Apx.refl (f : Fpdf) : Apx f f := ⟨_, .refl f⟩
theorem Apx.out {f g : Fpdf} (hs : f.state = 1) (h : Apx f g) (s : Bytes) : Apx f (g.out s) := by obtain ⟨b, h⟩ := h; exact ⟨_, h.out hs s⟩
theorem Apx.outs {f g : Fpdf} (hs : f.state = 1) (h : Apx f g) (s : String) : Apx f (g.outs s) := h.out hs _
theorem Apx.outf {f g : Fpdf} (hs : f.state = 1) (h : Apx f g) (s : String) (a : List Arg) : Apx f (g.outf s a) := h.out hs _
theorem Apx.ite {f g h : Fpdf} {c : Prop} [Decidable c] (h1 : Apx f g) (h2 : Apx f h) : Apx f (if c then g else h) := by split <;> assumption
theorem Apx.foldl {α} {f g : Fpdf} (F : Fpdf → α → Fpdf) (l : List α) (hF : ∀ g a, Apx f g → Apx f (F g a)) (h : Apx f g) : Apx f (l.foldl F g) := by
  induction l generalizing g with
  | nil => exact h
  | cons a l ih => exact ih (hF g a h)

/-- A stream object whose dictionary begins with `pre`. -/
theorem W.streamPre {f g1 g2 : Fpdf} {pre s data : Bytes} (md5 : Bytes → Bytes) (hs : f.state = 1) (hr : f.m.protect.rc4n ≤ f.n) (h1 : Ap f.newobj g1 pre) (h2 : Apx g1 g2)
    (hd : Declares (s ++ [10]) data.length) :
    ∃ r b', W f (((g2.out s).putstream md5 data).outs "endobj") [.stream (pre ++ r ++ (s ++ [10])) b'] ∧ Holds md5 f.m.protect (f.n + 1) data b' := by
  have hs1 : f.newobj.state = 1 := (newobj_state f).trans hs
  obtain ⟨r, h2⟩ := h2
  have h3 := (h1.trans h2).out hs1 s
  obtain ⟨b', hw, hh⟩ := W.streamEq md5 hs h3.toOut (Declares_left hd _) (by rw [h3.m, newobj_protect]) hr
  exact ⟨r, b', hw, hh⟩

theorem W.plainText {f g : Fpdf} {a b : Bytes} (h : W f g [.plain a]) (e : a = b) : W f g [.plain b] := e ▸ h

/-! ### Layers -/

/-- The object of a layer. -/
def layerBody (c : Bytes) : Body := .plain (B "<</Type /OCG /Name " ++ textstringPlain c ++ B ">>\n")

theorem layerObj_w (E : Ext) (f : Fpdf) (l : Layer) (hs : f.state = 1) (hr : f.m.protect.rc4n ≤ f.n) :
    ∃ c, W f (let x := (f.newobj.noteU16 l.name).textstring E.md5 (u16 l.name true); (x.1.outf "<</Type /OCG /Name %s>>" [.s x.2]).outs "endobj") [layerBody c] ∧
      Holds E.md5 f.m.protect (f.n + 1) (u16 l.name true) c := by
  have hs1 : f.newobj.state = 1 := (newobj_state f).trans hs
  have hn1 := (newobj_spec f hs).2.1
  have hm : (f.newobj.noteU16 l.name).m.protect = f.m.protect := newobj_protect f
  have hn : (f.newobj.noteU16 l.name).n = f.n + 1 := hn1
  obtain ⟨c, h1, h2, h3⟩ := textstring_holds E.md5 (f.newobj.noteU16 l.name) (u16 l.name true) (by rw [hm, hn]; omega)
  rw [hm, hn] at h3
  refine ⟨c, ?_, h3⟩
  dsimp only
  rw [h1]
  have h0 : Out f.newobj (f.newobj.noteU16 l.name) [] := ⟨by rw [List.append_nil]; rfl, rfl, id⟩
  have h4 := (h0.trans h2).o hs1 (sprintf "<</Type /OCG /Name %s>>" [.s (textstringPlain c)])
  have e : sprintf "<</Type /OCG /Name %s>>" [.s (textstringPlain c)] = B "<</Type /OCG /Name " ++ (textstringPlain c ++ B ">>") := sprintfB_of_render _ _ _ rfl
  have e2 : ([] ++ [] ++ (sprintf "<</Type /OCG /Name %s>>" [.s (textstringPlain c)] ++ [10]) : Bytes) = B "<</Type /OCG /Name " ++ textstringPlain c ++ B ">>\n" := by
    rw [e, show B ">>\n" = B ">>" ++ [10] from rfl]; simp only [List.append_assoc, List.nil_append]
  rw [e2] at h4
  exact W.plainEq hs h4

theorem layerLoop_w (E : Ext) (l : List Layer) : ∀ (f : Fpdf) (done : List Layer), f.state = 1 → f.m.protect.rc4n ≤ f.n →
    ∃ objs, W f (f.layerPutLayersLoop E done l).1 objs ∧ objs.length = l.length ∧
      (f.layerPutLayersLoop E done l).2 = done ++ l.mapIdx (fun i x => { x with objNum := f.n + 1 + i }) ∧
      ∀ i x, l[i]? = some x → ∃ c, objs[i]? = some (layerBody c) ∧ Holds E.md5 f.m.protect (f.n + 1 + i) (u16 x.name true) c := by
  induction l with
  | nil => intro f done hs hr; exact ⟨[], W.refl f, rfl, by simp [Fpdf.layerPutLayersLoop], by intro i x h; simp at h⟩
  | cons a r ih =>
    intro f done hs hr
    unfold Fpdf.layerPutLayersLoop
    obtain ⟨c, w1, h1⟩ := layerObj_w E f a hs hr
    dsimp only at w1 ⊢
    have hn1 := (newobj_spec f hs).2.1
    generalize Fpdf.outs _ "endobj" = g at w1 ⊢
    obtain ⟨objs, w2, hl, he, h2⟩ := ih g (done ++ [{ a with objNum := f.newobj.n }]) (w1.state.trans hs) (w1.rc hr)
    refine ⟨_, w1.trans w2, by simp [hl, Nat.add_comm], ?_, ?_⟩
    · rw [he, w1.n, hn1, List.mapIdx_cons]
      simp only [List.append_assoc, List.cons_append, List.nil_append, List.length_cons, List.length_nil, Nat.add_zero, Nat.zero_add]
      congr 2
      refine List.mapIdx_eq_mapIdx_iff.2 ?_
      intro i hi
      have : f.n + 1 + 1 + i = f.n + 1 + (i + 1) := by omega
      rw [this]
    · intro i x hi
      cases i with
      | zero =>
        simp only [List.getElem?_cons_zero, Option.some.injEq] at hi
        subst hi
        exact ⟨c, rfl, h1⟩
      | succ i =>
        obtain ⟨c', h3, h4⟩ := h2 i x (by simpa using hi)
        refine ⟨c', by simpa using h3, ?_⟩
        have h5 := Holds.of_wfix w1.fix h4
        rw [w1.n] at h5
        have : f.n + [layerBody c].length + 1 + i = f.n + 1 + (i + 1) := by simp only [List.length_cons, List.length_nil]; omega
        rwa [this] at h5

/-! ### Blend modes -/

/-- The object of a blend mode. -/
def blendBody (b : BlendMode) : Body := .plain (B "<</Type /ExtGState /ca " ++ b.fillStr ++ B " /CA " ++ b.strokeStr ++ B " /BM /" ++ b.modeStr ++ B ">>\n")

theorem blendLoop_w (l : List BlendMode) : ∀ (f : Fpdf) (done : List BlendMode), f.state = 1 →
    W f (f.putBlendLoop done l).1 (l.map blendBody) ∧ (f.putBlendLoop done l).2 = done ++ l.mapIdx (fun i x => { x with objNum := f.n + 1 + i }) := by
  induction l with
  | nil => intro f done hs; exact ⟨W.refl f, by simp [Fpdf.putBlendLoop]⟩
  | cons a r ih =>
    intro f done hs
    have hs1 : f.newobj.state = 1 := (newobj_state f).trans hs
    have hn1 := (newobj_spec f hs).2.1
    have h4 := (Ap.refl f.newobj).out hs1 (sprintf "<</Type /ExtGState /ca %s /CA %s /BM /%s>>" [.s a.fillStr, .s a.strokeStr, .s a.modeStr])
    have e : sprintf "<</Type /ExtGState /ca %s /CA %s /BM /%s>>" [.s a.fillStr, .s a.strokeStr, .s a.modeStr]
      = B "<</Type /ExtGState /ca " ++ (a.fillStr ++ (B " /CA " ++ (a.strokeStr ++ (B " /BM /" ++ (a.modeStr ++ B ">>"))))) := sprintfB_of_render _ _ _ rfl
    have w1 : W f ((f.newobj.outf "<</Type /ExtGState /ca %s /CA %s /BM /%s>>" [.s a.fillStr, .s a.strokeStr, .s a.modeStr]).outs "endobj") [blendBody a] := by
      have := W.plainEq hs h4.toOut
      rw [e] at this
      have e2 : ([] ++ (B "<</Type /ExtGState /ca " ++ (a.fillStr ++ (B " /CA " ++ (a.strokeStr ++ (B " /BM /" ++ (a.modeStr ++ B ">>"))))) ++ [10]) : Bytes)
        = B "<</Type /ExtGState /ca " ++ a.fillStr ++ B " /CA " ++ a.strokeStr ++ B " /BM /" ++ a.modeStr ++ B ">>\n" := by
        rw [show B ">>\n" = B ">>" ++ [10] from rfl]; simp only [List.append_assoc, List.nil_append]
      rw [e2] at this
      unfold Fpdf.outf
      rw [e]
      exact this
    unfold Fpdf.putBlendLoop
    dsimp only
    generalize Fpdf.outs _ "endobj" = g at w1 ⊢
    obtain ⟨w2, he⟩ := ih g (done ++ [{ a with objNum := f.newobj.n }]) (w1.state.trans hs)
    refine ⟨w1.trans w2, ?_⟩
    rw [he, w1.n, hn1, List.mapIdx_cons]
    simp only [List.append_assoc, List.cons_append, List.nil_append, List.length_cons, List.length_nil, Nat.add_zero, Nat.zero_add]
    congr 2
    refine List.mapIdx_eq_mapIdx_iff.2 ?_
    intro i hi
    have : f.n + 1 + 1 + i = f.n + 1 + (i + 1) := by omega
    rw [this]

/-! ### Gradients -/

/-- The two objects of a gradient: the function of the colours and the shading; `n` is the number of the function. -/
def gradBodies (g : Gradient) (n : Nat) : List Body :=
  [.plain (B "<</FunctionType 2 /Domain [0.0 1.0] /C0 [" ++ g.clr1Str ++ B "] /C1 [" ++ g.clr2Str ++ B "] /N 1>>\n"),
   .plain (B "<</ShadingType " ++ decimal g.tp ++ B " /ColorSpace /DeviceRGB\n/Coords [" ++
     (if g.tp = 2 then fmtF 5 g.x1 ++ B " " ++ fmtF 5 g.y1 ++ B " " ++ fmtF 5 g.x2 ++ B " " ++ fmtF 5 g.y2
      else fmtF 5 g.x1 ++ B " " ++ fmtF 5 g.y1 ++ B " 0 " ++ fmtF 5 g.x2 ++ B " " ++ fmtF 5 g.y2 ++ B " " ++ fmtF 5 g.r) ++
     B "] /Function " ++ decimal n ++ B " 0 R /Extend [true true]>>\n")]

theorem putGradient_w (f : Fpdf) (a : Gradient) (hs : f.state = 1) : W f (f.putGradient a) (gradBodies a (f.n + 1)) := by
  have hs1 : f.newobj.state = 1 := (newobj_state f).trans hs
  have hn1 := (newobj_spec f hs).2.1
  unfold Fpdf.putGradient
  dsimp only
  have w1 : W f ((f.newobj.outf "<</FunctionType 2 /Domain [0.0 1.0] /C0 [%s] /C1 [%s] /N 1>>" [.s a.clr1Str, .s a.clr2Str]).outs "endobj")
      [.plain (B "<</FunctionType 2 /Domain [0.0 1.0] /C0 [" ++ a.clr1Str ++ B "] /C1 [" ++ a.clr2Str ++ B "] /N 1>>\n")] := by
    have h4 := (Ap.refl f.newobj).out hs1 (sprintf "<</FunctionType 2 /Domain [0.0 1.0] /C0 [%s] /C1 [%s] /N 1>>" [.s a.clr1Str, .s a.clr2Str])
    have e : sprintf "<</FunctionType 2 /Domain [0.0 1.0] /C0 [%s] /C1 [%s] /N 1>>" [.s a.clr1Str, .s a.clr2Str]
      = B "<</FunctionType 2 /Domain [0.0 1.0] /C0 [" ++ (a.clr1Str ++ (B "] /C1 [" ++ (a.clr2Str ++ B "] /N 1>>"))) := sprintfB_of_render _ _ _ rfl
    have := W.plainEq hs h4.toOut
    rw [e] at this
    have e2 : ([] ++ (B "<</FunctionType 2 /Domain [0.0 1.0] /C0 [" ++ (a.clr1Str ++ (B "] /C1 [" ++ (a.clr2Str ++ B "] /N 1>>"))) ++ [10]) : Bytes)
      = B "<</FunctionType 2 /Domain [0.0 1.0] /C0 [" ++ a.clr1Str ++ B "] /C1 [" ++ a.clr2Str ++ B "] /N 1>>\n" := by
      rw [show B "] /N 1>>\n" = B "] /N 1>>" ++ [10] from rfl]; simp only [List.append_assoc, List.nil_append]
    rw [e2] at this
    unfold Fpdf.outf
    rw [e]
    exact this
  generalize Fpdf.outs _ "endobj" = g at w1 ⊢
  have hsg := w1.state.trans hs
  have hng : g.n = f.n + 1 := w1.n
  have hs2 : g.newobj.state = 1 := (newobj_state g).trans hsg
  rw [hng]
  have e1 : sprintf "<</ShadingType %d /ColorSpace /DeviceRGB" [.d a.tp] = B "<</ShadingType " ++ (intDec a.tp ++ B " /ColorSpace /DeviceRGB") := sprintfB_of_render _ _ _ rfl
  have h5 := (Ap.refl g.newobj).out hs2 (sprintf "<</ShadingType %d /ColorSpace /DeviceRGB" [.d a.tp])
  have w2 : W g ((if a.tp = 2 then (g.newobj.outf "<</ShadingType %d /ColorSpace /DeviceRGB" [.d a.tp]).outf "/Coords [%.5f %.5f %.5f %.5f] /Function %d 0 R /Extend [true true]>>"
        [.f a.x1, .f a.y1, .f a.x2, .f a.y2, .d (f.n + 1 : Nat)]
    else (g.newobj.outf "<</ShadingType %d /ColorSpace /DeviceRGB" [.d a.tp]).outf "/Coords [%.5f %.5f 0 %.5f %.5f %.5f] /Function %d 0 R /Extend [true true]>>"
        [.f a.x1, .f a.y1, .f a.x2, .f a.y2, .f a.r, .d (f.n + 1 : Nat)]).outs "endobj")
      [.plain (B "<</ShadingType " ++ decimal a.tp ++ B " /ColorSpace /DeviceRGB\n/Coords [" ++
     (if a.tp = 2 then fmtF 5 a.x1 ++ B " " ++ fmtF 5 a.y1 ++ B " " ++ fmtF 5 a.x2 ++ B " " ++ fmtF 5 a.y2
      else fmtF 5 a.x1 ++ B " " ++ fmtF 5 a.y1 ++ B " 0 " ++ fmtF 5 a.x2 ++ B " " ++ fmtF 5 a.y2 ++ B " " ++ fmtF 5 a.r) ++
     B "] /Function " ++ decimal (f.n + 1) ++ B " 0 R /Extend [true true]>>\n")] := by
    by_cases htp : a.tp = 2
    · rw [if_pos htp, if_pos htp]
      have e2 : sprintf "/Coords [%.5f %.5f %.5f %.5f] /Function %d 0 R /Extend [true true]>>" [.f a.x1, .f a.y1, .f a.x2, .f a.y2, .d (f.n + 1 : Nat)]
        = B "/Coords [" ++ (fmtF 5 a.x1 ++ (B " " ++ (fmtF 5 a.y1 ++ (B " " ++ (fmtF 5 a.x2 ++ (B " " ++ (fmtF 5 a.y2 ++ (B "] /Function " ++ (intDec (f.n + 1 : Nat) ++ B " 0 R /Extend [true true]>>"))))))))) :=
        sprintfB_of_render _ _ _ rfl
      have h6 := h5.out hs2 (sprintf "/Coords [%.5f %.5f %.5f %.5f] /Function %d 0 R /Extend [true true]>>" [.f a.x1, .f a.y1, .f a.x2, .f a.y2, .d (f.n + 1 : Nat)])
      have := W.plainEq hsg h6.toOut
      unfold Fpdf.outf
      rw [e1, e2] at this ⊢
      refine W.plainText this ?_
      rw [show B " 0 R /Extend [true true]>>\n" = B " 0 R /Extend [true true]>>" ++ [10] from rfl,
        show B " /ColorSpace /DeviceRGB\n/Coords [" = B " /ColorSpace /DeviceRGB" ++ [10] ++ B "/Coords [" from rfl]
      simp only [intDec_ofNat, natDec_decimal, List.append_assoc, List.nil_append]
    · rw [if_neg htp, if_neg htp]
      have e2 : sprintf "/Coords [%.5f %.5f 0 %.5f %.5f %.5f] /Function %d 0 R /Extend [true true]>>" [.f a.x1, .f a.y1, .f a.x2, .f a.y2, .f a.r, .d (f.n + 1 : Nat)]
        = B "/Coords [" ++ (fmtF 5 a.x1 ++ (B " " ++ (fmtF 5 a.y1 ++ (B " 0 " ++ (fmtF 5 a.x2 ++ (B " " ++ (fmtF 5 a.y2 ++ (B " " ++ (fmtF 5 a.r ++ (B "] /Function " ++ (intDec (f.n + 1 : Nat) ++ B " 0 R /Extend [true true]>>"))))))))))) :=
        sprintfB_of_render _ _ _ rfl
      have h6 := h5.out hs2 (sprintf "/Coords [%.5f %.5f 0 %.5f %.5f %.5f] /Function %d 0 R /Extend [true true]>>" [.f a.x1, .f a.y1, .f a.x2, .f a.y2, .f a.r, .d (f.n + 1 : Nat)])
      have := W.plainEq hsg h6.toOut
      unfold Fpdf.outf
      rw [e1, e2] at this ⊢
      refine W.plainText this ?_
      rw [show B " 0 R /Extend [true true]>>\n" = B " 0 R /Extend [true true]>>" ++ [10] from rfl,
        show B " /ColorSpace /DeviceRGB\n/Coords [" = B " /ColorSpace /DeviceRGB" ++ [10] ++ B "/Coords [" from rfl]
      simp only [intDec_ofNat, natDec_decimal, List.append_assoc, List.nil_append]
  exact w1.trans w2

theorem gradLoop_w (l : List Gradient) : ∀ (f : Fpdf) (done : List Gradient), f.state = 1 →
    ∃ objs, W f (f.putGradLoop done l).1 objs ∧ objs.length = 2 * l.length ∧ (f.putGradLoop done l).2 = done ++ l.mapIdx (fun i x => { x with objNum := f.n + 2 + 2 * i }) ∧
      ∀ i x, l[i]? = some x → objs[2 * i]? = (gradBodies x (f.n + 1 + 2 * i))[0]? ∧ objs[2 * i + 1]? = (gradBodies x (f.n + 1 + 2 * i))[1]? := by
  induction l with
  | nil => intro f done hs; exact ⟨[], W.refl f, rfl, by simp [Fpdf.putGradLoop], by intro i x h; simp at h⟩
  | cons a r ih =>
    intro f done hs
    unfold Fpdf.putGradLoop
    dsimp only
    have w1 := putGradient_w f a hs
    generalize f.putGradient a = g at w1 ⊢
    obtain ⟨objs, w2, hl, he, h2⟩ := ih g (done ++ [{ a with objNum := g.n }]) (w1.state.trans hs)
    have hn : g.n = f.n + 2 := w1.n
    refine ⟨_, w1.trans w2, by simp [hl, gradBodies]; omega, ?_, ?_⟩
    · rw [he, hn, List.mapIdx_cons]
      simp only [List.append_assoc, List.cons_append, List.nil_append, Nat.mul_zero, Nat.add_zero]
      congr 2
      refine List.mapIdx_eq_mapIdx_iff.2 ?_
      intro i hi
      have : f.n + 2 + 2 + 2 * i = f.n + 2 + 2 * (i + 1) := by omega
      rw [this]
    · intro i x hi
      cases i with
      | zero =>
        simp only [List.getElem?_cons_zero, Option.some.injEq] at hi
        subst hi
        exact ⟨rfl, rfl⟩
      | succ i =>
        obtain ⟨h3, h4⟩ := h2 i x (by simpa using hi)
        rw [hn, show f.n + 2 + 1 + 2 * i = f.n + 1 + 2 * (i + 1) by omega] at h3 h4
        refine ⟨?_, ?_⟩
        · rw [← h3, List.getElem?_append_right (by simp only [gradBodies, List.length_cons, List.length_nil]; omega)]; congr 1
        · rw [← h4, List.getElem?_append_right (by simp only [gradBodies, List.length_cons, List.length_nil]; omega)]; congr 1

/-! ### Spot colours -/

/-- The object of a spot colour. -/
def spotBody (name : Bytes) (v : SpotColor) : Body :=
  .plain (B "[/Separation /" ++ replaceAll (B " ") (B "#20") name ++ B "\n/DeviceCMYK <<\n/Range [0 1 0 1 0 1 0 1] /C0 [0 0 0 0] \n/C1 [" ++
    fmtF 3 ((v.c : Rat) / 100) ++ B " " ++ fmtF 3 ((v.m : Rat) / 100) ++ B " " ++ fmtF 3 ((v.y : Rat) / 100) ++ B " " ++ fmtF 3 ((v.k : Rat) / 100) ++
    B "] \n/FunctionType 2 /Domain [0 1] /N 1>>]\n")

theorem putSpotColor_w (f : Fpdf) (name : Bytes) (v : SpotColor) (hs : f.state = 1) : W f (f.putSpotColor name v) [spotBody name v] ∧ (f.putSpotColor name v).r = f.r := by
  have hs1 : f.newobj.state = 1 := (newobj_state f).trans hs
  unfold Fpdf.putSpotColor spotBody
  dsimp only
  generalize replaceAll (B " ") (B "#20") name = nm
  generalize hc : (v.c : Rat) / 100 = c
  generalize hm : (v.m : Rat) / 100 = m
  generalize hy : (v.y : Rat) / 100 = y
  generalize hk : (v.k : Rat) / 100 = k
  have e1 : sprintf "[/Separation /%s" [.s nm] = B "[/Separation /" ++ (nm ++ []) := sprintfB_of_render _ _ _ rfl
  have e2 : sprintf "/C1 [%.3f %.3f %.3f %.3f] " [.f c, .f m, .f y, .f k]
    = B "/C1 [" ++ (fmtF 3 c ++ (B " " ++ (fmtF 3 m ++ (B " " ++ (fmtF 3 y ++ (B " " ++ (fmtF 3 k ++ B "] "))))))) := sprintfB_of_render _ _ _ rfl
  have h := (((((Ap.refl f.newobj).out hs1 (sprintf "[/Separation /%s" [.s nm])).out hs1 (B "/DeviceCMYK <<")).out hs1 (B "/Range [0 1 0 1 0 1 0 1] /C0 [0 0 0 0] ")).out hs1
    (sprintf "/C1 [%.3f %.3f %.3f %.3f] " [.f c, .f m, .f y, .f k])).out hs1 (B "/FunctionType 2 /Domain [0 1] /N 1>>]")
  constructor
  · refine W.plainText (W.plainEq hs h.toOut) ?_
    rw [e1, e2, show B "\n/DeviceCMYK <<\n/Range [0 1 0 1 0 1 0 1] /C0 [0 0 0 0] \n/C1 [" = [10] ++ B "/DeviceCMYK <<" ++ [10] ++ B "/Range [0 1 0 1 0 1 0 1] /C0 [0 0 0 0] " ++ [10] ++ B "/C1 [" from rfl,
      show B "] \n/FunctionType 2 /Domain [0 1] /N 1>>]\n" = B "] " ++ [10] ++ B "/FunctionType 2 /Domain [0 1] /N 1>>]" ++ [10] from rfl]
    simp only [List.append_assoc, List.nil_append]
  · have h' := h.out hs1 (B "endobj")
    refine h'.r.trans ?_
    unfold Fpdf.newobj Fpdf.outf Fpdf.out
    dsimp only
    split <;> rfl

/-- One step of `putSpotColors`. -/
def spotStep (f : Fpdf) (k : Bytes) : Fpdf :=
  match lookup k f.r.spotColorMap with
  | some v => let f := f.putSpotColor k v; { f with r.spotColorMap := Model.insert k { v with objID := f.n } f.r.spotColorMap }
  | none => f

theorem W.spot {f g : Fpdf} {o : List Body} (h : W f g o) (m : List (Bytes × SpotColor)) : W f { g with r.spotColorMap := m } o := by
  refine ⟨h.buf, h.n, ?_, h.len, h.old, h.new, h.ok, h.rc⟩
  exact Eq.trans (b := wfix g) rfl h.fix

theorem spotStep_some {f : Fpdf} {k : Bytes} {v : SpotColor} (h : lookup k f.r.spotColorMap = some v) :
    spotStep f k = { f.putSpotColor k v with r.spotColorMap := Model.insert k { v with objID := (f.putSpotColor k v).n } (f.putSpotColor k v).r.spotColorMap } := by
  unfold spotStep; rw [h]
theorem spotStep_none {f : Fpdf} {k : Bytes} (h : lookup k f.r.spotColorMap = none) : spotStep f k = f := by
  unfold spotStep; rw [h]

theorem spotLoop_w (ks : List Bytes) : ∀ f : Fpdf, f.state = 1 →
    ∃ objs, W f (ks.foldl spotStep f) objs ∧ (∀ k, k ∉ ks → lookup k (ks.foldl spotStep f).r.spotColorMap = lookup k f.r.spotColorMap) ∧
      ∀ k ∈ ks, ∀ v, lookup k f.r.spotColorMap = some v → ∃ i, lookup k (ks.foldl spotStep f).r.spotColorMap = some { v with objID := f.n + 1 + i } ∧ objs[i]? = some (spotBody k v) := by
  induction ks with
  | nil => intro f hs; exact ⟨[], W.refl f, fun _ _ => rfl, fun k hk => absurd hk (by simp)⟩
  | cons a r ih =>
    intro f hs
    rw [List.foldl_cons]
    cases ha : lookup a f.r.spotColorMap with
    | none =>
      rw [spotStep_none ha]
      obtain ⟨objs, w, h1, h2⟩ := ih f hs
      refine ⟨objs, w, fun k hk => h1 k (fun x => hk (List.mem_cons_of_mem _ x)), fun k hk v hv => h2 k ?_ v hv⟩
      rcases List.mem_cons.1 hk with rfl | hk
      · rw [ha] at hv; cases hv
      · exact hk
    | some va =>
      rw [spotStep_some ha]
      obtain ⟨w1, hr1⟩ := putSpotColor_w f a va hs
      have hn : (f.putSpotColor a va).n = f.n + 1 := w1.n
      rw [hn, hr1]
      have w1' := w1.spot (Model.insert a { va with objID := f.n + 1 } f.r.spotColorMap)
      obtain ⟨objs, w2, h1, h2⟩ := ih { f.putSpotColor a va with r.spotColorMap := Model.insert a { va with objID := f.n + 1 } f.r.spotColorMap } (w1'.state.trans hs)
      generalize hg : ({ f.putSpotColor a va with r.spotColorMap := Model.insert a { va with objID := f.n + 1 } f.r.spotColorMap } : Fpdf) = g at w1' w2 h1 h2 ⊢
      have hgn : g.n = f.n + 1 := w1'.n
      have hgm : g.r.spotColorMap = Model.insert a { va with objID := f.n + 1 } f.r.spotColorMap := by rw [← hg]
      rw [hgm] at h1 h2
      rw [hgn] at h2
      have go : ∀ k ∈ r, ∀ v, lookup k f.r.spotColorMap = some v → ∃ i, lookup k (r.foldl spotStep g).r.spotColorMap = some { v with objID := f.n + 1 + i } ∧
          ([spotBody a va] ++ objs)[i]? = some (spotBody k v) := by
        intro k hk v hv
        by_cases hka : k = a
        · subst hka
          obtain ⟨i, q1, q2⟩ := h2 k hk _ (lookup_insert_self _ _ _)
          rw [ha] at hv; cases hv
          exact ⟨i + 1, by rw [q1, show f.n + 1 + 1 + i = f.n + 1 + (i + 1) by omega], q2⟩
        · obtain ⟨i, q1, q2⟩ := h2 k hk v (by rw [lookup_insert_ne _ _ hka]; exact hv)
          exact ⟨i + 1, by rw [q1, show f.n + 1 + 1 + i = f.n + 1 + (i + 1) by omega], q2⟩
      refine ⟨_, w1'.trans w2, fun k hk => ?_, fun k hk v hv => ?_⟩
      · rw [h1 k (fun x => hk (List.mem_cons_of_mem _ x)), lookup_insert_ne]
        rintro rfl; exact hk List.mem_cons_self
      · by_cases hkr : k ∈ r
        · exact go k hkr v hv
        · rcases List.mem_cons.1 hk with rfl | hk
          · refine ⟨0, ?_, ?_⟩
            · rw [h1 k hkr, lookup_insert_self]
              rw [ha] at hv; cases hv; rfl
            · rw [ha] at hv; cases hv; rfl
          · exact absurd hk hkr

theorem insertKey_perm (le : Bytes → Bytes → Bool) (k : Bytes) (l : List Bytes) : (insertKey le k l).Perm (k :: l) := by
  induction l with
  | nil => exact List.Perm.refl _
  | cons a r ih =>
    unfold insertKey
    split
    · exact List.Perm.refl _
    · exact (ih.cons a).trans (List.Perm.swap k a r)

theorem sortKeys_perm (le : Bytes → Bytes → Bool) (l : List Bytes) : (sortKeys le l).Perm l := by
  induction l with
  | nil => exact List.Perm.refl _
  | cons a r ih => exact (insertKey_perm le a _).trans (ih.cons a)

theorem mem_sortKeys {le : Bytes → Bytes → Bool} {l : List Bytes} {k : Bytes} : k ∈ sortKeys le l ↔ k ∈ l := (sortKeys_perm le l).mem_iff

theorem lookup_keys {α β} [DecidableEq α] {k : α} {m : List (α × β)} {v : β} (h : lookup k m = some v) : k ∈ keys m := by
  induction m with
  | nil => cases h
  | cons x m ih =>
    unfold lookup at h
    split at h
    · next hx => exact List.mem_cons.2 (.inl hx.symm)
    · exact List.mem_cons_of_mem _ (ih h)

theorem mem_ord (E : Ext) (s : Nat) {k : Bytes} {l : List Bytes} (h : k ∈ l) : k ∈ E.ord s l := (E.ord_perm s l).mem_iff.2 h
theorem mem_visit (E : Ext) (b : Bool) (s : Nat) {k : Bytes} {l : List Bytes} (le : Bytes → Bytes → Bool) (h : k ∈ l) : k ∈ visit E b s l le := by
  unfold visit
  dsimp only
  split
  · exact mem_sortKeys.2 (mem_ord E s h)
  · exact mem_ord E s h

theorem putSpotColors_w (E : Ext) (f : Fpdf) (hs : f.state = 1) :
    ∃ objs, W f (f.putSpotColors E) objs ∧ ∀ k v, lookup k f.r.spotColorMap = some v →
      ∃ i, lookup k (f.putSpotColors E).r.spotColorMap = some { v with objID := f.n + 1 + i } ∧ objs[i]? = some (spotBody k v) := by
  obtain ⟨objs, w, h1, h2⟩ := spotLoop_w (E.ord 3 (keys f.r.spotColorMap)) f hs
  have e : f.putSpotColors E = (E.ord 3 (keys f.r.spotColorMap)).foldl spotStep f := rfl
  rw [e]
  exact ⟨objs, w, fun k v hv => h2 k (mem_ord E 3 (lookup_keys hv)) v hv⟩

/-! ### Fonts -/

/-- The first object written is a font. -/
def FirstFont (f g : Fpdf) : Prop := f.state = 1 → g.err = none → ∃ t rest, W f g (.plain (B "<</Type /Font\n" ++ t) :: rest)

theorem FirstFont.then {f g h : Fpdf} (h1 : FirstFont f g) (h2 : Writes g h) : FirstFont f h := fun hs he => by
  obtain ⟨t, rest, w⟩ := h1 hs (latch_none h2 he)
  obtain ⟨o, w2⟩ := h2.w (w.state.trans hs) he
  exact ⟨t, rest ++ o, w.trans w2⟩

theorem FirstFont.of {f g : Fpdf} (h : Pl (f.newobj.outs "<</Type /Font") g) : FirstFont f (g.outs "endobj") := fun hs _ => by
  obtain ⟨r, w⟩ := W.plainPre hs ((Ap.refl f.newobj).out ((newobj_state f).trans hs) (B "<</Type /Font")).toOut h
  exact ⟨r, [], by rw [show B "<</Type /Font\n" = [] ++ (B "<</Type /Font" ++ [10]) from rfl]; exact w⟩

theorem FirstFont.plain' {f f1 g : Fpdf} (h : Ps f1.newobj g) (h0 : FirstFont f f1) : FirstFont f (g.outs "endobj") := h0.then (Writes.plain h)
theorem FirstFont.stream' {f f1 g : Fpdf} {md5 : Bytes → Bytes} {data : Bytes} (h : Ln data.length f1.newobj g) (h0 : FirstFont f f1) :
    FirstFont f ((g.putstream md5 data).outs "endobj") := h0.then (Writes.stream md5 data h)

theorem putCoreFont_first (f : Fpdf) (font : FontDef) : FirstFont f (f.putCoreFont font) := by
  unfold Fpdf.putCoreFont
  dsimp only
  apply FirstFont.of
  ps

theorem putSimpleFont_first (f : Fpdf) (font : FontDef) (nf : Nat) : FirstFont f (f.putSimpleFont font nf) := by
  unfold Fpdf.putSimpleFont
  dsimp only
  apply FirstFont.plain'
  · ps
  apply FirstFont.plain'
  · ps
  apply FirstFont.of
  apply Pl.outs
  apply Pl.ite
  · intro _; ps
  · intro _; ps

theorem type0_text (a : Bytes) (b c : Int) : sprintf "<</Type /Font\n/Subtype /Type0\n/BaseFont /%s\n/Encoding /Identity-H\n/DescendantFonts [%d 0 R]\n/ToUnicode %d 0 R>>\nendobj" [.s a, .d b, .d c]
    = B "<</Type /Font" ++ ([10] ++ (B "/Subtype /Type0\n/BaseFont /" ++ (a ++ (B "\n/Encoding /Identity-H\n/DescendantFonts [" ++ (intDec b ++ (B " 0 R]\n/ToUnicode " ++ (intDec c ++ B " 0 R>>"))))))) ++ B "\nendobj" := by
  set_option maxRecDepth 4000 in
  have e : sprintf "<</Type /Font\n/Subtype /Type0\n/BaseFont /%s\n/Encoding /Identity-H\n/DescendantFonts [%d 0 R]\n/ToUnicode %d 0 R>>\nendobj" [.s a, .d b, .d c]
    = B "<</Type /Font\n/Subtype /Type0\n/BaseFont /" ++ (a ++ (B "\n/Encoding /Identity-H\n/DescendantFonts [" ++ (intDec b ++ (B " 0 R]\n/ToUnicode " ++ (intDec c ++ B " 0 R>>\nendobj"))))) :=
    sprintfB_of_render _ _ _ rfl
  rw [e, show B " 0 R>>\nendobj" = B " 0 R>>" ++ B "\nendobj" from rfl, show B "<</Type /Font\n/Subtype /Type0\n/BaseFont /" = B "<</Type /Font" ++ [10] ++ B "/Subtype /Type0\n/BaseFont /" from rfl]
  simp only [List.append_assoc]

theorem out_out (f : Fpdf) (hs : f.state = 1) (a b : Bytes) : f.out (a ++ ([10] ++ b)) = (f.out a).out b := by
  have h2 : ¬ f.state = 2 := by rw [hs]; decide
  unfold Fpdf.out
  rw [if_neg h2, if_neg h2, if_neg h2]
  simp only [List.append_assoc]

theorem putUtf8Font_first (E : Ext) (f : Fpdf) (font : FontDef) : FirstFont f (f.putUtf8Font E font) := by
  unfold Fpdf.putUtf8Font
  dsimp only
  generalize Fpdf.fontRunes f font = used
  generalize E.deflate (E.cutFont font used) = comp
  generalize List.length (E.cutFont font used) = clen
  generalize E.deflate (E.cidToGid font used) = gid
  generalize widthLine font used = cw
  generalize B "utf8" ++ font.name = fontName
  have h1 : FirstFont f (f.newobj.outf "<</Type /Font\n/Subtype /Type0\n/BaseFont /%s\n/Encoding /Identity-H\n/DescendantFonts [%d 0 R]\n/ToUnicode %d 0 R>>\nendobj"
      [.s fontName, .d (f.newobj.n + 1 : Nat), .d (f.newobj.n + 2 : Nat)]) := by
    intro hs he
    revert he
    unfold Fpdf.outf
    rw [type0_text, endobj_split, out_out _ ((newobj_state f).trans hs)]
    exact fun he => FirstFont.of ((Pl.refl _).out _) hs he
  generalize Fpdf.outf f.newobj _ _ = f1 at h1 ⊢
  apply FirstFont.stream'
  · apply Ln.outs; apply Ln.out; apply Ln.outs
    apply Ps.len (Ps.refl _)
    exact Declares_mk (B "<<") comp.length 10 [] rfl
  apply FirstFont.stream'
  · apply Ps.len (Ps.refl _)
    have := Declares_right (Declares_mk (B "<<") gid.length 0x2F (B "Filter /FlateDecode>>") rfl) [10]
    have e : B "<</Length " ++ natDec gid.length ++ B "/Filter /FlateDecode>>" = B "<<" ++ B "/Length " ++ natDec gid.length ++ 0x2F :: B "Filter /FlateDecode>>" := rfl
    rw [e]; exact this
  apply FirstFont.plain'
  · ps
  apply FirstFont.plain'
  · ps
  apply FirstFont.stream'
  · apply Ps.len (Ps.refl _)
    exact len_decl_out (B "<<") [0x3E] _
  apply FirstFont.plain'
  · ps
  exact h1

theorem putCoreFont_kp (f : Fpdf) (font : FontDef) : Kp id f (f.putCoreFont font) := by
  unfold Fpdf.putCoreFont
  dsimp only
  kps

theorem putSimpleFont_kp (f : Fpdf) (font : FontDef) (nf : Nat) : Kp id f (f.putSimpleFont font nf) := by
  unfold Fpdf.putSimpleFont
  dsimp only
  kps

theorem putUtf8Font_kp (E : Ext) (f : Fpdf) (font : FontDef) : Kp id f (f.putUtf8Font E font) := by
  unfold Fpdf.putUtf8Font
  dsimp only
  generalize Fpdf.fontRunes f font = used
  generalize E.deflate (E.cutFont font used) = comp
  generalize List.length (E.cutFont font used) = clen
  generalize E.deflate (E.cidToGid font used) = gid
  generalize widthLine font used = cw
  generalize B "utf8" ++ font.name = fontName
  kps

theorem Kp.fonts {f g : Fpdf} (h : Kp id f g) (hs : f.state = 1) : g.t.fonts = f.t.fonts := congrArg Res.fonts (h hs).2

theorem W.ofFonts {f g : Fpdf} {o : List Body} (m : List (Bytes × FontDef)) (h : W { f with t.fonts := m } g o) : W f g o :=
  ⟨h.buf, h.n, Eq.trans (b := wfix { f with t.fonts := m }) h.fix rfl, h.len, h.old, h.new, h.ok, h.rc⟩

theorem putFont_w (E : Ext) (nf : Nat) (f : Fpdf) (k : Bytes) (font : FontDef) (hs : f.state = 1) (he : f.err = none) (hl : lookup k f.t.fonts = some font)
    (hg : (f.putFont E nf k).err = none) :
    (∃ t rest, W f (f.putFont E nf k) (.plain (B "<</Type /Font\n" ++ t) :: rest)) ∧
      (f.putFont E nf k).t.fonts = Model.insert k { font with n := f.n + 1 } f.t.fonts := by
  unfold Fpdf.putFont at hg ⊢
  rw [if_neg (by simp [he]), hl] at hg ⊢
  dsimp only at hg ⊢
  have key : ∀ (m : List (Bytes × FontDef)) (g : Fpdf), FirstFont { f with t.fonts := m } g → Kp id { f with t.fonts := m } g → g.err = none →
      (∃ t rest, W f g (.plain (B "<</Type /Font\n" ++ t) :: rest)) ∧ g.t.fonts = m := by
    intro m g h1 h2 h3
    obtain ⟨t, rest, w⟩ := h1 hs h3
    exact ⟨⟨t, rest, w.ofFonts m⟩, h2.fonts hs⟩
  generalize Model.insert k { font with n := f.n + 1 } f.t.fonts = m at hg ⊢
  by_cases h1 : font.tp = B "Core"
  · rw [if_pos h1] at hg ⊢
    exact key m _ (putCoreFont_first _ _) (putCoreFont_kp _ _) hg
  rw [if_neg h1] at hg ⊢
  by_cases h2 : font.tp = B "Type1" ∨ font.tp = B "TrueType"
  · rw [if_pos h2] at hg ⊢
    exact key m _ (putSimpleFont_first _ _ _) (putSimpleFont_kp _ _ _) hg
  rw [if_neg h2] at hg ⊢
  by_cases h3 : font.tp = B "UTF8"
  · rw [if_pos h3] at hg ⊢
    exact key m _ (putUtf8Font_first _ _ _) (putUtf8Font_kp _ _ _) hg
  · rw [if_neg h3] at hg
    simp [Fpdf.assignErr] at hg

theorem fontLoop_w (E : Ext) (nf : Nat) (ks : List Bytes) : ∀ f : Fpdf, f.state = 1 → (ks.foldl (Fpdf.putFont E nf) f).err = none →
    ∃ objs, W f (ks.foldl (Fpdf.putFont E nf) f) objs ∧ (∀ k, k ∉ ks → lookup k (ks.foldl (Fpdf.putFont E nf) f).t.fonts = lookup k f.t.fonts) ∧
      ∀ k ∈ ks, ∀ v, lookup k f.t.fonts = some v → ∃ i t, lookup k (ks.foldl (Fpdf.putFont E nf) f).t.fonts = some { v with n := f.n + 1 + i } ∧
        objs[i]? = some (.plain (B "<</Type /Font\n" ++ t)) := by
  induction ks with
  | nil => intro f hs _; exact ⟨[], W.refl f, fun _ _ => rfl, fun k hk => absurd hk (by simp)⟩
  | cons a r ih =>
    intro f hs he
    rw [List.foldl_cons] at he ⊢
    have e1 : (f.putFont E nf a).err = none := latch_none (Writes.foldl _ (putFont_writes E nf) r _) he
    have e0 : f.err = none := latch_none (putFont_writes E nf f a) e1
    cases ha : lookup a f.t.fonts with
    | none =>
      have : f.putFont E nf a = f := by unfold Fpdf.putFont; rw [if_neg (by simp [e0]), ha]
      rw [this] at he ⊢
      obtain ⟨objs, w, h1, h2⟩ := ih f hs he
      refine ⟨objs, w, fun k hk => h1 k (fun x => hk (List.mem_cons_of_mem _ x)), fun k hk v hv => h2 k ?_ v hv⟩
      rcases List.mem_cons.1 hk with rfl | hk
      · rw [ha] at hv; cases hv
      · exact hk
    | some va =>
      obtain ⟨⟨t0, rest, w1⟩, hm⟩ := putFont_w E nf f a va hs e0 ha e1
      generalize f.putFont E nf a = g at he e1 w1 hm ⊢
      obtain ⟨objs, w2, h1, h2⟩ := ih g (w1.state.trans hs) he
      have hgn : g.n = f.n + (rest.length + 1) := w1.n
      rw [hm] at h1 h2
      rw [hgn] at h2
      have go : ∀ k ∈ r, ∀ v, lookup k f.t.fonts = some v → ∃ i t, lookup k (r.foldl (Fpdf.putFont E nf) g).t.fonts = some { v with n := f.n + 1 + i } ∧
          ((.plain (B "<</Type /Font\n" ++ t0) :: rest) ++ objs)[i]? = some (.plain (B "<</Type /Font\n" ++ t)) := by
        intro k hk v hv
        have : ∃ w, lookup k (Model.insert a { va with n := f.n + 1 } f.t.fonts) = some w ∧ ∀ x, ({ w with n := x } : FontDef) = { v with n := x } := by
          by_cases hka : k = a
          · subst hka
            rw [ha] at hv; cases hv
            exact ⟨_, lookup_insert_self _ _ _, fun x => rfl⟩
          · exact ⟨v, by rw [lookup_insert_ne _ _ hka]; exact hv, fun x => rfl⟩
        obtain ⟨w, hw1, hw2⟩ := this
        obtain ⟨i, t', q1, q2⟩ := h2 k hk w hw1
        refine ⟨rest.length + 1 + i, t', ?_, ?_⟩
        · rw [q1, hw2, show f.n + (rest.length + 1) + 1 + i = f.n + 1 + (rest.length + 1 + i) by omega]
        · rw [List.getElem?_append_right (by simp only [List.length_cons]; omega), ← q2]
          congr 1
          simp only [List.length_cons]; omega
      refine ⟨_, w1.trans w2, fun k hk => ?_, fun k hk v hv => ?_⟩
      · rw [h1 k (fun x => hk (List.mem_cons_of_mem _ x)), lookup_insert_ne]
        rintro rfl; exact hk List.mem_cons_self
      · by_cases hkr : k ∈ r
        · exact go k hkr v hv
        · rcases List.mem_cons.1 hk with rfl | hk
          · refine ⟨0, t0, ?_, ?_⟩
            · rw [h1 k hkr, lookup_insert_self]
              rw [ha] at hv; cases hv; rfl
            · rfl
          · exact absurd hk hkr

/-- Forget the font files. -/
def noFontFiles (r : Res) : Res := { r with fontFiles := [] }

theorem putDiffs_kp (f : Fpdf) : Kp noFontFiles f f.putDiffs := by
  unfold Fpdf.putDiffs
  refine Kp.foldl _ (fun f k => ?_) _ (Kp.refl f)
  dsimp only
  kps

theorem putFontFile_kp (E : Ext) (f : Fpdf) (file : Bytes) : Kp noFontFiles f (f.putFontFile E file) := by
  unfold Fpdf.putFontFile
  split
  · exact Kp.refl f
  split
  · exact Kp.refl f
  split
  · dsimp only
    have hu : ∀ m : List (Bytes × FontFile), Kp noFontFiles f.newobj { f.newobj with t.fontFiles := m } := fun m => Kp.upd rfl rfl
    split
    · refine Kp.trans (g := f.newobj) (by kps) ?_
      exact (hu _).trans (Kp.upd rfl rfl)
    · refine Kp.trans (g := f.newobj) (by kps) ?_
      repeat (with_reducible first | apply hu | apply Kp.outs | apply Kp.outf | apply Kp.putstream | apply Kp.ite)
  · exact Kp.refl f

theorem putfonts_w (E : Ext) (f : Fpdf) (hs : f.state = 1) (he : (f.putfonts E).err = none) :
    ∃ objs, W f (f.putfonts E) objs ∧ ∀ k v, lookup k f.t.fonts = some v →
      ∃ i t, lookup k (f.putfonts E).t.fonts = some { v with n := f.n + 1 + i } ∧ objs[i]? = some (.plain (B "<</Type /Font\n" ++ t)) := by
  have e0 := latch_none (putfonts_writes E f) he
  unfold Fpdf.putfonts at he ⊢
  rw [if_neg (by simp [e0])] at he ⊢
  dsimp only at he ⊢
  have hw := (putDiffs_writes f).trans (Writes.foldl (Fpdf.putFontFile E) (putFontFile_writes E) (visit E f.putDiffs.m.catalogSort 4 (keys f.putDiffs.t.fontFiles) bytesLe) f.putDiffs)
  have hk := Kp.foldl (Fpdf.putFontFile E) (putFontFile_kp E) (visit E f.putDiffs.m.catalogSort 4 (keys f.putDiffs.t.fontFiles) bytesLe) (putDiffs_kp f)
  generalize (visit E f.putDiffs.m.catalogSort 4 (keys f.putDiffs.t.fontFiles) bytesLe).foldl (Fpdf.putFontFile E) f.putDiffs = g at he hw hk ⊢
  have e1 : g.err = none := by
    by_contra hc
    rw [if_pos hc] at he
    exact hc he
  rw [if_neg (by simp [e1])] at he ⊢
  obtain ⟨o1, w1⟩ := hw.w hs e1
  obtain ⟨o2, w2, _, h2⟩ := fontLoop_w E f.n (visit E g.m.catalogSort 5 (keys g.t.fonts) bytesLe) g (w1.state.trans hs) he
  refine ⟨_, w1.trans w2, fun k v hv => ?_⟩
  have hf : g.t.fonts = f.t.fonts := congrArg Res.fonts (hk hs).2
  rw [← hf] at hv
  obtain ⟨i, t, q1, q2⟩ := h2 k (mem_visit E _ _ _ (lookup_keys hv)) v hv
  refine ⟨o1.length + i, t, ?_, ?_⟩
  · rw [q1, w1.n, show f.n + o1.length + 1 + i = f.n + 1 + (o1.length + i) by omega]
  · rw [List.getElem?_append_right (by omega), ← q2]; congr 1; omega

/-! ### Images -/

/-- The body of object `n` is the image `im`. -/
def ImgObj (E : Ext) (pr : Protect) (n : Nat) (im : ImageInfo) (b : Body) : Prop :=
  ∃ d b', b = .stream (B "<</Type /XObject\n/Subtype /Image\n/Width " ++ intDec (Fpdf.truncRat im.w) ++ B "\n/Height " ++ intDec (Fpdf.truncRat im.h) ++ B "\n" ++ d) b' ∧
    Holds E.md5 pr n im.data b'

theorem putImageObj_w (E : Ext) (f : Fpdf) (im : ImageInfo) (hs : f.state = 1) (hr : f.m.protect.rc4n ≤ f.n) :
    ∃ b, W f (f.putImageObj E im) [b] ∧ ImgObj E f.m.protect (f.n + 1) im b := by
  have hs1 : f.newobj.state = 1 := (newobj_state f).trans hs
  unfold Fpdf.putImageObj
  dsimp only
  have e1 : sprintf "/Width %d" [.d (Fpdf.truncRat im.w)] = B "/Width " ++ (intDec (Fpdf.truncRat im.w) ++ []) := sprintfB_of_render _ _ _ rfl
  have e2 : sprintf "/Height %d" [.d (Fpdf.truncRat im.h)] = B "/Height " ++ (intDec (Fpdf.truncRat im.h) ++ []) := sprintfB_of_render _ _ _ rfl
  have h := ((((Ap.refl f.newobj).out hs1 (B "<</Type /XObject")).out hs1 (B "/Subtype /Image")).out hs1 (sprintf "/Width %d" [.d (Fpdf.truncRat im.w)])).out hs1
    (sprintf "/Height %d" [.d (Fpdf.truncRat im.h)])
  have hx : ([] ++ (B "<</Type /XObject" ++ [10]) ++ (B "/Subtype /Image" ++ [10]) ++ (sprintf "/Width %d" [.d (Fpdf.truncRat im.w)] ++ [10]) ++ (sprintf "/Height %d" [.d (Fpdf.truncRat im.h)] ++ [10]) : Bytes)
    = B "<</Type /XObject\n/Subtype /Image\n/Width " ++ intDec (Fpdf.truncRat im.w) ++ B "\n/Height " ++ intDec (Fpdf.truncRat im.h) ++ B "\n" := by
    rw [e1, e2, show B "<</Type /XObject\n/Subtype /Image\n/Width " = B "<</Type /XObject" ++ [10] ++ B "/Subtype /Image" ++ [10] ++ B "/Width " from rfl,
      show B "\n/Height " = [10] ++ B "/Height " from rfl, show B "\n" = [10] from rfl]
    simp only [List.append_assoc, List.nil_append, List.append_nil]
  rw [hx] at h
  change Ap f.newobj ((((f.newobj.outs "<</Type /XObject").outs "/Subtype /Image").outf "/Width %d" [.d (Fpdf.truncRat im.w)]).outf "/Height %d" [.d (Fpdf.truncRat im.h)]) _ at h
  generalize (((f.newobj.outs "<</Type /XObject").outs "/Subtype /Image").outf "/Width %d" [.d (Fpdf.truncRat im.w)]).outf "/Height %d" [.d (Fpdf.truncRat im.h)] = g1 at h ⊢
  have hsg : g1.state = 1 := h.state.trans hs1
  have hd : Declares (sprintf "/Length %d>>" [.d (im.data.length : Nat)] ++ [10]) im.data.length := len_decl (p := []) (c := 0x3E) (q := [0x3E]) (sprintfB_of_render _ _ _ rfl) rfl
  have key : ∀ g2, Apx g1 g2 → ∃ b, W f (((g2.outf "/Length %d>>" [.d im.data.length]).putstream E.md5 im.data).outs "endobj") [b] ∧ ImgObj E f.m.protect (f.n + 1) im b := by
    intro g2 h2
    obtain ⟨r, b', w, hh⟩ := W.streamPre E.md5 hs hr h h2 hd
    refine ⟨_, w, r ++ (sprintf "/Length %d>>" [.d (im.data.length : Nat)] ++ [10]), b', ?_, hh⟩
    rw [List.append_assoc _ r]
  apply key
  repeat (with_reducible first
    | exact Apx.refl _
    | apply Apx.outs hsg | apply Apx.outf hsg | apply Apx.ite)

theorem putImageObj_kp (E : Ext) (f : Fpdf) (i : ImageInfo) : Kp id f (f.putImageObj E i) := by
  unfold Fpdf.putImageObj
  dsimp only
  kps

theorem putimage_kp (E : Ext) (f : Fpdf) (i : ImageInfo) : Kp id f (f.putimage E i) := by
  unfold Fpdf.putimage
  have key : ∀ g, Kp id f g → Kp id f (if i.cs = B "Indexed" then g.putContent E i.pal else g) := fun g h =>
    Kp.ite (h.trans (putContent_keep E _ _)) h
  refine key _ ((putImageObj_kp E f i).trans ?_)
  split
  · exact Kp.ite (putImageObj_kp E _ _) (Kp.refl _)
  · exact Kp.refl _

theorem putimage_w (E : Ext) (f : Fpdf) (im : ImageInfo) (hs : f.state = 1) (hr : f.m.protect.rc4n ≤ f.n) (he : (f.putimage E im).err = none) :
    ∃ b rest, W f (f.putimage E im) (b :: rest) ∧ ImgObj E f.m.protect (f.n + 1) im b := by
  have hw : Writes (f.putImageObj E im) (f.putimage E im) := by
    unfold Fpdf.putimage
    have key : ∀ g, Writes (f.putImageObj E im) g → Writes (f.putImageObj E im) (if im.cs = B "Indexed" then g.putContent E im.pal else g) := fun g h =>
      Writes.ite (fun _ => h.trans (putContent_writes E _ _)) (fun _ => h)
    refine key _ ?_
    split
    · exact Writes.ite (fun _ => putImageObj_writes E _ _) (fun _ => Writes.refl _)
    · exact Writes.refl _
  obtain ⟨b, w1, h1⟩ := putImageObj_w E f im hs hr
  obtain ⟨o, w2⟩ := hw.w (w1.state.trans hs) he
  exact ⟨b, o, w1.trans w2, h1⟩

theorem W.images {f g : Fpdf} {o : List Body} (h : W f g o) : g.r.images = f.r.images := by
  have := congrArg (fun x : Fpdf => x.r.images) h.fix
  exact this

theorem W.setImg {f g : Fpdf} {o : List Body} (h : W f g o) (p n : Nat) : W f (g.setImgN p n) o :=
  ⟨h.buf, h.n, Eq.trans (b := wfix g) rfl h.fix, h.len, h.old, h.new, h.ok, h.rc⟩

theorem setImgN_get (f : Fpdf) (p n q : Nat) : (f.setImgN p n).r.imgHeap[q]? = if q = p then (f.r.imgHeap[q]?).map (fun i => { i with n := n }) else f.r.imgHeap[q]? := by
  unfold Fpdf.setImgN
  dsimp only
  generalize f.r.imgHeap = l
  induction l generalizing p q with
  | nil => cases p <;> simp [modifyAt]
  | cons a l ih =>
    cases p with
    | zero => cases q <;> simp [modifyAt]
    | succ p =>
      cases q with
      | zero => simp [modifyAt]
      | succ q =>
        simp only [modifyAt, List.getElem?_cons_succ, ih, Nat.add_right_cancel_iff]

/-- Equal up to the object number. -/
def SameImg (a b : ImageInfo) : Prop := ∃ n, b = { a with n := n }
theorem SameImg.refl (a : ImageInfo) : SameImg a a := ⟨a.n, rfl⟩
theorem SameImg.trans {a b c : ImageInfo} (h1 : SameImg a b) (h2 : SameImg b c) : SameImg a c := by
  obtain ⟨n, rfl⟩ := h1; obtain ⟨m, rfl⟩ := h2; exact ⟨m, rfl⟩
theorem SameImg.i {a b : ImageInfo} (h : SameImg a b) : b.i = a.i := by obtain ⟨n, rfl⟩ := h; rfl
theorem ImgObj.same {E : Ext} {pr : Protect} {n : Nat} {a b : ImageInfo} {x : Body} (h : SameImg a b) (hx : ImgObj E pr n b x) : ImgObj E pr n a x := by
  obtain ⟨m, rfl⟩ := h; exact hx

/-- What writing the images with the names `l` does. -/
structure ImgLoop (E : Ext) (l : List Bytes) (f g : Fpdf) (ins : List (Bytes × Nat)) (objs : List Body) : Prop where
  w : W f g objs
  other : ∀ p, (∀ k ∈ l, lookup k f.r.images ≠ some p) → g.r.imgHeap[p]? = f.r.imgHeap[p]?
  img : ∀ k ∈ l, ∀ p im, lookup k f.r.images = some p → f.r.imgHeap[p]? = some im → ∃ n, g.r.imgHeap[p]? = some { im with n := n } ∧
    (lookup im.i ins = some n ∨ lookup im.i ins = none ∧ ∃ i b k' p' im', n = f.n + 1 + i ∧ objs[i]? = some b ∧ lookup k' f.r.images = some p' ∧
      f.r.imgHeap[p']? = some im' ∧ im'.i = im.i ∧ ImgObj E f.m.protect n im' b)

theorem heap_same {f g : Fpdf} (h : Kp id f g) (hs : f.state = 1) : g.r.imgHeap = f.r.imgHeap := congrArg Res.imgHeap (h hs).2

theorem imgLoop_w (E : Ext) (l : List Bytes) : ∀ (f : Fpdf) (ins : List (Bytes × Nat)), f.state = 1 → f.m.protect.rc4n ≤ f.n → (Fpdf.putImagesLoop E l f ins).err = none →
    ∃ objs, ImgLoop E l f (Fpdf.putImagesLoop E l f ins) ins objs := by
  induction l with
  | nil => intro f ins hs hr he; exact ⟨[], W.refl f, fun _ _ => rfl, fun k hk => absurd hk (by simp)⟩
  | cons k r ih =>
    intro f ins hs hr he
    unfold Fpdf.putImagesLoop at he ⊢
    cases hk : lookup k f.r.images with
    | none =>
      rw [hk] at he
      dsimp only at he ⊢
      obtain ⟨objs, h⟩ := ih f ins hs hr he
      refine ⟨objs, h.w, fun p hp => h.other p fun k' hk' => hp k' (List.mem_cons_of_mem _ hk'), fun k' hk' p im h1 h2 => ?_⟩
      rcases List.mem_cons.1 hk' with rfl | hk'
      · rw [hk] at h1; cases h1
      · exact h.img k' hk' p im h1 h2
    | some ptr =>
      rw [hk] at he
      dsimp only at he ⊢
      cases hi : f.r.imgHeap[ptr]? with
      | none =>
        rw [hi] at he
        dsimp only at he ⊢
        obtain ⟨objs, h⟩ := ih f ins hs hr he
        refine ⟨objs, h.w, fun p hp => h.other p fun k' hk' => hp k' (List.mem_cons_of_mem _ hk'), fun k' hk' p im h1 h2 => ?_⟩
        rcases List.mem_cons.1 hk' with rfl | hk'
        · rw [hk] at h1; cases h1; rw [hi] at h2; cases h2
        · exact h.img k' hk' p im h1 h2
      | some info =>
        rw [hi] at he
        dsimp only at he ⊢
        -- the rest of the loop, started in a document `g` whose image `ptr` has number `num`
        have go : ∀ (g : Fpdf) (num : Nat) (ins' : List (Bytes × Nat)) (o : List Body), W f g o → (∀ q, g.r.imgHeap[q]? = if q = ptr then (f.r.imgHeap[q]?).map (fun i => { i with n := num }) else f.r.imgHeap[q]?) →
            lookup info.i ins' = some num → (∀ h, h ≠ info.i → lookup h ins' = lookup h ins) →
            (lookup info.i ins = some num ∨ lookup info.i ins = none ∧ num = f.n + 1 ∧ ∃ b, o[0]? = some b ∧ ImgObj E f.m.protect (f.n + 1) info b) →
            (Fpdf.putImagesLoop E r g ins').err = none → ∃ objs, ImgLoop E (k :: r) f (Fpdf.putImagesLoop E r g ins') ins objs := by
          intro g num ins' o w hheap hnum hoth hsrc he'
          obtain ⟨objs, h⟩ := ih g ins' (w.state.trans hs) (w.rc hr) he'
          have hims : g.r.images = f.r.images := w.images
          have hsame : ∀ (q : Nat) im, f.r.imgHeap[q]? = some im → ∃ im2, g.r.imgHeap[q]? = some im2 ∧ SameImg im im2 ∧ (q = ptr → im2.n = num) := by
            intro q im hq
            rw [hheap q]
            by_cases hqp : q = ptr
            · rw [if_pos hqp, hq]; exact ⟨_, rfl, ⟨num, rfl⟩, fun _ => rfl⟩
            · rw [if_neg hqp]; exact ⟨im, hq, SameImg.refl im, fun x => absurd x hqp⟩
          have hback : ∀ (q : Nat) im2, g.r.imgHeap[q]? = some im2 → ∃ im, f.r.imgHeap[q]? = some im ∧ SameImg im im2 := by
            intro q im2 hq
            rw [hheap q] at hq
            by_cases hqp : q = ptr
            · rw [if_pos hqp] at hq
              cases hx : f.r.imgHeap[q]? with
              | none => rw [hx] at hq; cases hq
              | some im => rw [hx] at hq; exact ⟨im, rfl, num, (Option.some.inj hq).symm⟩
            · rw [if_neg hqp] at hq; exact ⟨im2, hq, SameImg.refl _⟩
          have fin : ∀ p im, f.r.imgHeap[p]? = some im → (∃ k' ∈ r, lookup k' f.r.images = some p) ∨ p = ptr → ∃ n, (Fpdf.putImagesLoop E r g ins').r.imgHeap[p]? = some { im with n := n } ∧
              (lookup im.i ins = some n ∨ lookup im.i ins = none ∧ ∃ i b k' p' im', n = f.n + 1 + i ∧ (o ++ objs)[i]? = some b ∧ lookup k' f.r.images = some p' ∧
                f.r.imgHeap[p']? = some im' ∧ im'.i = im.i ∧ ImgObj E f.m.protect n im' b) := by
            intro p im hp hor
            obtain ⟨im2, g1, g2, g3⟩ := hsame p im hp
            have main : ∃ n, (Fpdf.putImagesLoop E r g ins').r.imgHeap[p]? = some { im with n := n } ∧ (lookup im.i ins' = some n ∨ lookup im.i ins' = none ∧ ∃ i b k' p' im',
                n = g.n + 1 + i ∧ objs[i]? = some b ∧ lookup k' f.r.images = some p' ∧ f.r.imgHeap[p']? = some im' ∧ im'.i = im.i ∧ ImgObj E f.m.protect n im' b) := by
              by_cases hex : ∃ k' ∈ r, lookup k' f.r.images = some p
              · obtain ⟨k', hk', hl'⟩ := hex
                obtain ⟨n, q1, q2⟩ := h.img k' hk' p im2 (by rw [hims]; exact hl') g1
                refine ⟨n, ?_, ?_⟩
                · obtain ⟨m, rfl⟩ := g2; exact q1
                · rw [g2.i] at q2
                  rcases q2 with q2 | ⟨q2, i, b, k2, p2, im', r1, r2, r3, r4, r5, r6⟩
                  · exact .inl q2
                  · obtain ⟨im'', s1, s2⟩ := hback p2 im' r4
                    refine .inr ⟨q2, i, b, k2, p2, im'', r1, r2, by rw [← hims]; exact r3, s1, by rw [← s2.i]; exact r5, ImgObj.same s2 ?_⟩
                    obtain ⟨d, b', t1, t2⟩ := r6
                    exact ⟨d, b', t1, Holds.of_wfix w.fix t2⟩
              · rcases hor with hor | hor
                · exact absurd hor hex
                · have hoth2 := h.other p (by rw [hims]; intro k' hk' hl'; exact hex ⟨k', hk', hl'⟩)
                  refine ⟨num, ?_, ?_⟩
                  · rw [hoth2, g1]
                    have := g3 hor
                    obtain ⟨m, rfl⟩ := g2
                    simp only at this
                    rw [this]
                  · subst hor
                    rw [hi] at hp; cases hp
                    exact .inl hnum
            obtain ⟨n, m1, m2⟩ := main
            refine ⟨n, m1, ?_⟩
            by_cases hii : im.i = info.i
            · rw [hii] at m2 ⊢
              rw [hnum] at m2
              rcases m2 with m2 | ⟨m2, _⟩
              · cases m2
                rcases hsrc with hs1 | ⟨hs1, hs2, b, hs3, hs4⟩
                · exact .inl hs1
                · refine .inr ⟨hs1, 0, b, k, ptr, info, hs2, ?_, hk, hi, rfl, by rw [hs2]; exact hs4⟩
                  cases o with
                  | nil => cases hs3
                  | cons x o => exact hs3
              · cases m2
            · rw [hoth _ hii] at m2
              rcases m2 with m2 | ⟨m2, i, b, k2, p2, im', r1, r2, r3⟩
              · exact .inl m2
              · refine .inr ⟨m2, o.length + i, b, k2, p2, im', ?_, ?_, r3⟩
                · rw [r1, w.n]; omega
                · rw [List.getElem?_append_right (by omega), ← r2]; congr 1; omega
          refine ⟨o ++ objs, w.trans h.w, ?_, ?_⟩
          · intro p hp
            rw [h.other p (by rw [hims]; exact fun k' hk' => hp k' (List.mem_cons_of_mem _ hk')), hheap p, if_neg]
            intro hpp
            exact hp k List.mem_cons_self (by rw [hk, hpp])
          · intro k' hk' p im h1 h2
            apply fin p im h2
            rcases List.mem_cons.1 hk' with rfl | hk'
            · right; rw [hk] at h1; exact (Option.some.inj h1).symm
            · exact .inl ⟨k', hk', h1⟩
        cases hin : lookup info.i ins with
        | some n =>
          rw [hin] at he
          dsimp only at he ⊢
          exact go _ n ins [] ((W.refl f).setImg ptr n) (setImgN_get f ptr n) hin (fun _ _ => rfl) (.inl hin) he
        | none =>
          rw [hin] at he
          dsimp only at he ⊢
          have e1 : ((f.putimage E info).setImgN ptr (f.n + 1)).err = none := latch_none (putImagesLoop_writes E r _ _) he
          obtain ⟨b, rest, w1, h1⟩ := putimage_w E f info hs hr e1
          refine go _ (f.n + 1) _ (b :: rest) (w1.setImg ptr (f.n + 1)) ?_ (lookup_insert_self _ _ _) (fun h hh => lookup_insert_ne _ _ hh) (.inr ⟨hin, rfl, b, rfl, h1⟩) he
          intro q
          rw [setImgN_get, heap_same (putimage_kp E f info) hs]

theorem putimages_w (E : Ext) (f : Fpdf) (hs : f.state = 1) (hr : f.m.protect.rc4n ≤ f.n) (he : (f.putimages E).err = none) :
    ∃ objs, W f (f.putimages E) objs ∧ ∀ k p im, lookup k f.r.images = some p → f.r.imgHeap[p]? = some im → ∃ i b k' p' im', (f.putimages E).r.imgHeap[p]? = some { im with n := f.n + 1 + i } ∧
      objs[i]? = some b ∧ lookup k' f.r.images = some p' ∧ f.r.imgHeap[p']? = some im' ∧ im'.i = im.i ∧ ImgObj E f.m.protect (f.n + 1 + i) im' b := by
  unfold Fpdf.putimages at he ⊢
  obtain ⟨objs, h⟩ := imgLoop_w E _ f [] hs hr he
  refine ⟨objs, h.w, fun k p im h1 h2 => ?_⟩
  obtain ⟨n, q1, q2⟩ := h.img k (mem_visit E _ _ _ (lookup_keys h1)) p im h1 h2
  rcases q2 with q2 | ⟨_, i, b, k', p', im', r1, r2⟩
  · cases q2
  · subst r1
    exact ⟨i, b, k', p', im', q1, r2⟩

/-! ### Templates -/

/-- The body of object `n` is the template `t`. -/
def TplObj (E : Ext) (compress : Bool) (pr : Protect) (n : Nat) (t : Tmpl) (b : Body) : Prop :=
  ∃ d b', b = .stream (B "<<" ++ (if compress then B "/Filter /FlateDecode " else []) ++ B "/Type /XObject\n/Subtype /Form\n" ++ d) b' ∧
    Holds E.md5 pr n (if compress then E.deflate t.bytes else t.bytes) b'

theorem templateFontCatalog_ap (E : Ext) {f g : Fpdf} (hs : f.state = 1) (h : Apx f g) : Apx f (g.templateFontCatalog E) := by
  unfold Fpdf.templateFontCatalog
  dsimp only
  refine Apx.outs hs (Apx.foldl _ _ (fun f k h => ?_) (h.outs hs _)) _
  split
  · exact h.outf hs _ _
  · exact h

theorem putTemplateXObjects_ap (E : Ext) {f g : Fpdf} (hs : f.state = 1) (h : Apx f g) (t : Tmpl) : Apx f (g.putTemplateXObjects E t) := by
  unfold Fpdf.putTemplateXObjects
  dsimp only
  refine Apx.ite ?_ h
  refine Apx.outs hs (Apx.foldl _ _ (fun f k h => ?_) (Apx.foldl _ _ (fun f k h => ?_) (h.outs hs _))) _
  · split
    · exact h.outf hs _ _
    · exact h
  · split
    · exact h.outf hs _ _
    · exact h

theorem Apx.state {f g : Fpdf} (h : Apx f g) : g.state = f.state := by obtain ⟨b, h⟩ := h; exact h.state
theorem Apx.m {f g : Fpdf} (h : Apx f g) : g.m = f.m := by obtain ⟨b, h⟩ := h; exact h.m

theorem putstream_tpl (md5 : Bytes → Bytes) (f : Fpdf) (hs : f.state = 1) (b : Bytes) : ((f.putstream md5 b).outs "endobj").r.templateObjects = f.r.templateObjects := by
  obtain ⟨b', ho, _, _⟩ := putstream_out md5 f hs b
  have he := Out.out (ho.state.trans hs) (B "endobj")
  have := congrArg (fun x : Fpdf => x.r.templateObjects) (ho.trans he).fix
  exact this

theorem tpl_wfix (f : Fpdf) (m : List (Bytes × Nat)) : wfix { f with r.templateObjects := m } = wfix f := rfl
theorem tpl_rc (f : Fpdf) (m : List (Bytes × Nat)) : RcOk f { f with r.templateObjects := m } := id

/-- A stream object whose number is noted in the table of templates. -/
theorem W.tplStream {f g0 g : Fpdf} {d data : Bytes} (md5 : Bytes → Bytes) (hs : f.state = 1) (hr : f.m.protect.rc4n ≤ f.n) (k1 : wfix g0 = wfix f.newobj) (k2 : g0.buffer = f.newobj.buffer) (k3 : g0.n = f.newobj.n)
    (k4 : g0.offsets = f.newobj.offsets) (k5 : RcOk f.newobj g0) (k6 : g0.m.protect = f.m.protect) (h1 : Ap g0 g d) (hd : Declares d data.length) :
    ∃ b', W f ((g.putstream md5 data).outs "endobj") [.stream d b'] ∧ Holds md5 f.m.protect (f.n + 1) data b' := by
  have hs1 : f.newobj.state = 1 := (newobj_state f).trans hs
  have hs2 : g.state = 1 := h1.state.trans ((wfix_state k1).trans hs1)
  have hn : g.n = f.n + 1 := (h1.n.trans k3).trans (newobj_spec f hs).2.1
  obtain ⟨b', ho, hl, hb⟩ := putstream_out md5 g hs2 data
  have he := Out.out (ho.state.trans hs2) (B "endobj")
  have hh := (h1.toOut.trans ho).trans he
  have e : d ++ (B "stream\n" ++ b' ++ B "\nendstream\n") ++ (B "endobj" ++ [10]) = (Body.stream d b').bytes ++ B "endobj\n" := by
    unfold Body.bytes
    rw [show B "endobj\n" = B "endobj" ++ [10] from rfl]
    simp only [List.append_assoc]
  rw [e] at hh
  refine ⟨b', W.noted hs k1 k2 k3 k4 k5 hh ?_, ?_⟩
  · show Declares d b'.length
    rw [hl]; exact hd
  · unfold Holds
    rw [h1.m, k6, hn] at hb
    split
    · next h =>
      rw [if_pos h] at hb
      rw [hb]
      unfold decryptIn
      rw [rc4_fresh md5 _ _ _ (.inr (by omega))]
      exact rc4Crypt_involutive _ _
    · next h => rw [if_neg h] at hb; exact hb

theorem newobj_r (f : Fpdf) : f.newobj.r = f.r := by
  unfold Fpdf.newobj Fpdf.outf Fpdf.out; dsimp only; split <;> rfl
theorem newobj_m (f : Fpdf) : f.newobj.m = f.m := by
  unfold Fpdf.newobj Fpdf.outf Fpdf.out; dsimp only; split <;> rfl

/-- The start of a template object. -/
def tplHead (E : Ext) (f : Fpdf) (t : Tmpl) : Fpdf := { f.newobj with r.templateObjects := Model.insert (t.id E) f.newobj.n f.newobj.r.templateObjects }

theorem tplHead_ap (E : Ext) (f : Fpdf) (hs : f.state = 1) (t : Tmpl) :
    Ap (tplHead E f t) (((tplHead E f t).outf "<<%s/Type /XObject" [.s (if (tplHead E f t).m.compress then B "/Filter /FlateDecode " else [])]).outs "/Subtype /Form")
      (B "<<" ++ (if f.m.compress then B "/Filter /FlateDecode " else []) ++ B "/Type /XObject\n/Subtype /Form\n") := by
  have hs1 : (tplHead E f t).state = 1 := (newobj_state f).trans hs
  have hm : (tplHead E f t).m.compress = f.m.compress := congrArg MetaSt.compress (newobj_m f)
  rw [hm]
  generalize tplHead E f t = g at hs1 ⊢
  generalize (if f.m.compress then B "/Filter /FlateDecode " else []) = x
  have e1 : sprintf "<<%s/Type /XObject" [.s x] = B "<<" ++ (x ++ B "/Type /XObject") := sprintfB_of_render _ _ _ rfl
  have h := ((Ap.refl g).out hs1 (sprintf "<<%s/Type /XObject" [.s x])).out hs1 (B "/Subtype /Form")
  have e : ([] ++ (sprintf "<<%s/Type /XObject" [.s x] ++ [10]) ++ (B "/Subtype /Form" ++ [10]) : Bytes) = B "<<" ++ x ++ B "/Type /XObject\n/Subtype /Form\n" := by
    rw [e1, show B "/Type /XObject\n/Subtype /Form\n" = B "/Type /XObject" ++ [10] ++ B "/Subtype /Form" ++ [10] from rfl]
    simp only [List.append_assoc, List.nil_append]
  rw [e] at h
  exact h

theorem putTemplate_w (E : Ext) (f : Fpdf) (t : Tmpl) (hs : f.state = 1) (hr : f.m.protect.rc4n ≤ f.n) :
    ∃ b, W f (f.putTemplate E t) [b] ∧ TplObj E f.m.compress f.m.protect (f.n + 1) t b ∧
      (f.putTemplate E t).r.templateObjects = Model.insert (t.id E) (f.n + 1) f.r.templateObjects := by
  have h1 := tplHead_ap E f hs t
  have hs1 : (tplHead E f t).state = 1 := (newobj_state f).trans hs
  have hto : (tplHead E f t).r.templateObjects = Model.insert (t.id E) (f.n + 1) f.r.templateObjects := by
    unfold tplHead; dsimp only; rw [(newobj_spec f hs).2.1, newobj_r]
  have k1 : wfix (tplHead E f t) = wfix f.newobj := tpl_wfix _ _
  have k6 : (tplHead E f t).m.protect = f.m.protect := newobj_protect f
  have hm : (tplHead E f t).m.compress = f.m.compress := congrArg MetaSt.compress (newobj_m f)
  unfold Fpdf.putTemplate
  dsimp only
  change ∃ b, W f (Fpdf.outs (Fpdf.putstream E.md5 (Fpdf.outf _ "/Length %d >>" _) _) "endobj") [b] ∧ _
  have key : ∀ g2, Apx (((tplHead E f t).outf "<<%s/Type /XObject" [.s (if (tplHead E f t).m.compress then B "/Filter /FlateDecode " else [])]).outs "/Subtype /Form") g2 →
      ∃ b, W f (((g2.outf "/Length %d >>" [.d ((if g2.m.compress then E.deflate t.bytes else t.bytes).length : Nat)]).putstream E.md5 (if g2.m.compress then E.deflate t.bytes else t.bytes)).outs "endobj") [b] ∧
        TplObj E f.m.compress f.m.protect (f.n + 1) t b ∧
        (((g2.outf "/Length %d >>" [.d ((if g2.m.compress then E.deflate t.bytes else t.bytes).length : Nat)]).putstream E.md5 (if g2.m.compress then E.deflate t.bytes else t.bytes)).outs "endobj").r.templateObjects
          = Model.insert (t.id E) (f.n + 1) f.r.templateObjects := by
    intro g2 h2
    obtain ⟨r, h2⟩ := h2
    have h3 := h1.trans h2
    have hc : g2.m.compress = f.m.compress := by rw [h3.m]; exact hm
    rw [hc]
    generalize hdt : (if f.m.compress then E.deflate t.bytes else t.bytes) = data
    have hd : Declares (sprintf "/Length %d >>" [.d (data.length : Nat)] ++ [10]) data.length := len_decl (p := []) (c := 0x20) (q := B ">>") (sprintfB_of_render _ _ _ rfl) rfl
    have h4 := h3.out hs1 (sprintf "/Length %d >>" [.d (data.length : Nat)])
    obtain ⟨b', w, hh⟩ := W.tplStream E.md5 hs hr k1 rfl rfl rfl (tpl_rc _ _) k6 h4 (Declares_left hd _)
    refine ⟨_, w, ?_, ?_⟩
    · rw [← hdt] at hh
      refine ⟨r ++ (sprintf "/Length %d >>" [.d (data.length : Nat)] ++ [10]), b', ?_, hh⟩
      simp only [List.append_assoc]
    · refine (putstream_tpl _ _ (h4.state.trans hs1) _).trans ?_
      have := congrArg (fun x => x.templateObjects) h4.r
      exact this.trans hto
  have hsg := h1.state.trans hs1
  apply key
  have q1 := fun g h => templateFontCatalog_ap E (f := (((tplHead E f t).outf "<<%s/Type /XObject" [.s (if (tplHead E f t).m.compress then B "/Filter /FlateDecode " else [])]).outs "/Subtype /Form")) (g := g) hsg h
  have q2 := fun g h => putTemplateXObjects_ap E (f := (((tplHead E f t).outf "<<%s/Type /XObject" [.s (if (tplHead E f t).m.compress then B "/Filter /FlateDecode " else [])]).outs "/Subtype /Form")) (g := g) hsg h t
  apply Apx.outs hsg
  apply q2
  apply q1
  apply Apx.outs hsg
  apply Apx.outs hsg
  apply Apx.ite
  · apply Apx.outf hsg
    apply Apx.outf hsg
    apply Apx.outs hsg
    exact Apx.refl _
  · apply Apx.outf hsg
    apply Apx.outs hsg
    exact Apx.refl _

theorem W.meta {f g : Fpdf} {o : List Body} (h : W f g o) : g.m.compress = f.m.compress ∧ g.m.catalogSort = f.m.catalogSort := by
  have h1 := congrArg (fun x : Fpdf => x.m.compress) h.fix
  have h2 := congrArg (fun x : Fpdf => x.m.catalogSort) h.fix
  exact ⟨h1, h2⟩

theorem tplLoop_w (E : Ext) (ts : List Tmpl) : ∀ (f : Fpdf), f.state = 1 → f.m.protect.rc4n ≤ f.n →
    ∃ objs, W f (ts.foldl (Fpdf.putTemplate E) f) objs ∧ (∀ h, (∀ t ∈ ts, t.id E ≠ h) → lookup h (ts.foldl (Fpdf.putTemplate E) f).r.templateObjects = lookup h f.r.templateObjects) ∧
      ∀ t ∈ ts, ∃ i b t', lookup (t.id E) (ts.foldl (Fpdf.putTemplate E) f).r.templateObjects = some (f.n + 1 + i) ∧ objs[i]? = some b ∧ t' ∈ ts ∧ t'.id E = t.id E ∧
        TplObj E f.m.compress f.m.protect (f.n + 1 + i) t' b := by
  induction ts with
  | nil => intro f hs hr; exact ⟨[], W.refl f, fun _ _ => rfl, fun k hk => absurd hk (by simp)⟩
  | cons a r ih =>
    intro f hs hr
    rw [List.foldl_cons]
    obtain ⟨b, w1, h1, h2⟩ := putTemplate_w E f a hs hr
    generalize f.putTemplate E a = g at w1 h2 ⊢
    obtain ⟨objs, w2, q1, q2⟩ := ih g (w1.state.trans hs) (w1.rc hr)
    have hgn : g.n = f.n + 1 := w1.n
    have go : ∀ t ∈ r, ∃ i b' t', lookup (t.id E) (r.foldl (Fpdf.putTemplate E) g).r.templateObjects = some (f.n + 1 + i) ∧ ([b] ++ objs)[i]? = some b' ∧ t' ∈ a :: r ∧ t'.id E = t.id E ∧
        TplObj E f.m.compress f.m.protect (f.n + 1 + i) t' b' := by
      intro t ht
      obtain ⟨i, b', t', s1, s2, s3, s4, s5⟩ := q2 t ht
      refine ⟨i + 1, b', t', ?_, s2, List.mem_cons_of_mem _ s3, s4, ?_⟩
      · rw [s1, hgn]; congr 1; omega
      · rw [hgn, show f.n + 1 + 1 + i = f.n + 1 + (i + 1) by omega, w1.meta.1] at s5
        obtain ⟨d, b2, t1, t2⟩ := s5
        exact ⟨d, b2, t1, Holds.of_wfix w1.fix t2⟩
    refine ⟨_, w1.trans w2, fun h hh => ?_, fun t ht => ?_⟩
    · rw [q1 h (fun t ht => hh t (List.mem_cons_of_mem _ ht)), h2, lookup_insert_ne]
      exact fun e => hh a List.mem_cons_self e.symm
    · by_cases hex : ∃ t' ∈ r, t'.id E = t.id E
      · obtain ⟨t', ht', he⟩ := hex
        obtain ⟨i, b', t2, s1, s2, s3, s4, s5⟩ := go t' ht'
        rw [he] at s1 s4
        exact ⟨i, b', t2, s1, s2, s3, s4, s5⟩
      · rcases List.mem_cons.1 ht with rfl | ht
        · refine ⟨0, b, t, ?_, rfl, List.mem_cons_self, rfl, h1⟩
          rw [q1 _ (fun t' ht' he => hex ⟨t', ht', he⟩), h2, lookup_insert_self]
        · exact absurd ⟨t, ht, rfl⟩ hex

theorem chainDeps_self (t : Tmpl) : t ∈ chainDeps t := by
  cases t
  unfold chainDeps
  exact List.mem_append_right _ (List.mem_singleton.2 rfl)

theorem mem_dedup (l : List Tmpl) : ∀ (sorted : List Tmpl) (t : Tmpl), t ∈ sorted ∨ t ∈ l → ∃ t' ∈ dedupTmpl sorted l, t'.ptr = t.ptr := by
  induction l with
  | nil =>
    intro sorted t h
    rcases h with h | h
    · exact ⟨t, by simpa [dedupTmpl] using h, rfl⟩
    · simp at h
  | cons a r ih =>
    intro sorted t h
    unfold dedupTmpl
    split
    · next hany =>
      rcases h with h | h
      · exact ih sorted t (.inl h)
      · rcases List.mem_cons.1 h with rfl | h
        · obtain ⟨x, hx, he⟩ := List.any_eq_true.1 hany
          obtain ⟨t', h1, h2⟩ := ih sorted x (.inl hx)
          exact ⟨t', h1, h2.trans (by simpa using he)⟩
        · exact ih sorted t (.inr h)
    · rcases h with h | h
      · exact ih _ t (.inl (List.mem_append_left _ h))
      · rcases List.mem_cons.1 h with rfl | h
        · exact ih _ t (.inl (List.mem_append_right _ (List.mem_singleton.2 rfl)))
        · exact ih _ t (.inr h)

theorem dedup_sub (l : List Tmpl) : ∀ (sorted : List Tmpl) (t : Tmpl), t ∈ dedupTmpl sorted l → t ∈ sorted ∨ t ∈ l := by
  induction l with
  | nil => intro sorted t h; exact .inl (by simpa [dedupTmpl] using h)
  | cons a r ih =>
    intro sorted t h
    unfold dedupTmpl at h
    split at h
    · rcases ih _ t h with h | h
      · exact .inl h
      · exact .inr (List.mem_cons_of_mem _ h)
    · rcases ih _ t h with h | h
      · rcases List.mem_append.1 h with h | h
        · exact .inl h
        · exact .inr (List.mem_cons.2 (.inl (List.mem_singleton.1 h)))
      · exact .inr (List.mem_cons_of_mem _ h)

/-- The templates of a document and those they use, directly or not. -/
def allTemplates (m : List (Bytes × Tmpl)) : List Tmpl := (keys m).flatMap fun k => match lookup k m with | some t => chainDeps t | none => []

/-- A pointer leads to one template. -/
def PtrOk (m : List (Bytes × Tmpl)) : Prop := ∀ a ∈ allTemplates m, ∀ b ∈ allTemplates m, a.ptr = b.ptr → a = b

theorem sort_mem (ks : List Bytes) (m : List (Bytes × Tmpl)) (hks : ∀ k, k ∈ ks ↔ k ∈ keys m) (hp : PtrOk m) {k : Bytes} {t : Tmpl} (h : lookup k m = some t) : t ∈ sortTemplates ks m := by
  have hm : ∀ x, x ∈ (ks.flatMap fun k => match lookup k m with | some t => chainDeps t | none => []) ↔ x ∈ allTemplates m := by
    intro x
    unfold allTemplates
    simp only [List.mem_flatMap]
    exact ⟨fun ⟨k, a, b⟩ => ⟨k, (hks k).1 a, b⟩, fun ⟨k, a, b⟩ => ⟨k, (hks k).2 a, b⟩⟩
  have ht : t ∈ allTemplates m := by
    unfold allTemplates
    exact List.mem_flatMap.2 ⟨k, lookup_keys h, by rw [h]; exact chainDeps_self t⟩
  unfold sortTemplates
  obtain ⟨t', h1, h2⟩ := mem_dedup _ [] t (.inr ((hm t).2 ht))
  have h3 : t' ∈ allTemplates m := by
    rcases dedup_sub _ _ _ h1 with h | h
    · simp at h
    · exact (hm t').1 h
  have := hp t' h3 t ht h2
  rw [← this]; exact h1

theorem visit_iff (E : Ext) (b : Bool) (s : Nat) (l : List Bytes) (le : Bytes → Bytes → Bool) (k : Bytes) : k ∈ visit E b s l le ↔ k ∈ l := by
  unfold visit
  dsimp only
  split
  · rw [mem_sortKeys]; exact (E.ord_perm s l).mem_iff
  · exact (E.ord_perm s l).mem_iff

theorem putTemplates_w (E : Ext) (f : Fpdf) (hs : f.state = 1) (hr : f.m.protect.rc4n ≤ f.n) (hp : PtrOk f.r.templates) :
    ∃ objs, W f (f.putTemplates E) objs ∧ ∀ k t, lookup k f.r.templates = some t → ∃ i b t', lookup (t.id E) (f.putTemplates E).r.templateObjects = some (f.n + 1 + i) ∧
      objs[i]? = some b ∧ t'.id E = t.id E ∧ TplObj E f.m.compress f.m.protect (f.n + 1 + i) t' b := by
  unfold Fpdf.putTemplates
  obtain ⟨objs, w, _, h⟩ := tplLoop_w E (sortTemplates (visit E f.m.catalogSort 9 (keys f.r.templates) bytesLe) f.r.templates) f hs hr
  refine ⟨objs, w, fun k t hk => ?_⟩
  obtain ⟨i, b, t', h1, h2, _, h4, h5⟩ := h t (sort_mem _ _ (fun k => visit_iff E _ _ _ _ k) hp hk)
  exact ⟨i, b, t', h1, h2, h4, h5⟩

end Verif.Proof
