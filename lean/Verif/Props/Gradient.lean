import Verif.Props.Alpha
import Verif.Props.Drawing
/-
C64: gradients are painted in the area asked for, with the colours and the vector asked for.
-/
namespace Verif.Props
open Verif.Spec Verif.Model Verif.Proof

/-- Words separated by blanks. -/
def spaced : List Bytes → Bytes
  | [] => []
  | [a] => a
  | a :: r => a ++ B " " ++ spaced r

/-- A reader of the words, separated by blanks, reads the numbers `vs`, each to `p` decimals. -/
def Numbers (p : Nat) (t : Bytes) (vs : List Rat) : Prop :=
  ∃ ws, t = spaced ws ∧ List.Forall₂ (fun w v => (∀ c ∈ w, isRegular c = true) ∧ ∃ q, readReal w = some q ∧ |q - v| ≤ 1 / (2 * 10 ^ p)) ws vs

theorem numbers_fmt (p : Nat) (vs : List Rat) : Numbers p (spaced (vs.map (fmtF p))) vs := by
  refine ⟨_, rfl, ?_⟩
  induction vs with
  | nil => exact .nil
  | cons v r ih => exact .cons ⟨fmtF_regular p v, C54_fmtF_reads_close p v⟩ ih

/-- The components of a colour, from 0 to 1. -/
def unitColour (c : Int × Int × Int) : List Rat := [(clamp c.1 : Rat) / 255, (clamp c.2.1 : Rat) / 255, (clamp c.2.2 : Rat) / 255]

theorem gradColour (c : Int × Int × Int) : (rgbColorValue c.1 c.2.1 c.2.2 "" "").str = spaced ((unitColour c).map (fmtF 3)) := by
  unfold rgbColorValue
  rw [colorComp_eq, colorComp_eq, colorComp_eq]
  dsimp only
  rw [if_neg (by decide)]
  have e : ∀ a b c : Rat, sprintf "%.3f %.3f %.3f" [.f a, .f b, .f c] = fmtF 3 a ++ (B " " ++ (fmtF 3 b ++ (B " " ++ (fmtF 3 c ++ [])))) := fun a b c => sprintfB_of_render _ _ _ rfl
  rw [e]
  simp [unitColour, spaced]

/-- The numbers that place a gradient: the ends of the vector; for a radial gradient, the point with radius 0 and the circle. -/
def gradCoords (radial : Bool) (x1 y1 x2 y2 r : Rat) : List Rat := if radial then [x1, y1, 0, x2, y2, r] else [x1, y1, x2, y2]

/-- The text of these numbers. -/
def coordText (tp : Nat) (x1 y1 x2 y2 r : Rat) : Bytes :=
  if tp = 2 then fmtF 5 x1 ++ B " " ++ fmtF 5 y1 ++ B " " ++ fmtF 5 x2 ++ B " " ++ fmtF 5 y2
  else fmtF 5 x1 ++ B " " ++ fmtF 5 y1 ++ B " 0 " ++ fmtF 5 x2 ++ B " " ++ fmtF 5 y2 ++ B " " ++ fmtF 5 r

theorem coordText_reads (radial : Bool) (x1 y1 x2 y2 r : Rat) : Numbers 5 (coordText (if radial then 3 else 2) x1 y1 x2 y2 r) (gradCoords radial x1 y1 x2 y2 r) := by
  have w : ∀ v : Rat, (∀ c ∈ fmtF 5 v, isRegular c = true) ∧ ∃ q, readReal (fmtF 5 v) = some q ∧ |q - v| ≤ 1 / (2 * 10 ^ 5) := fun v => ⟨fmtF_regular 5 v, C54_fmtF_reads_close 5 v⟩
  have z : (∀ c ∈ B "0", isRegular c = true) ∧ ∃ q, readReal (B "0") = some q ∧ |q - 0| ≤ 1 / (2 * 10 ^ 5) := by
    refine ⟨by decide, 0, by decide +kernel, by norm_num⟩
  cases radial with
  | false =>
    refine ⟨[fmtF 5 x1, fmtF 5 y1, fmtF 5 x2, fmtF 5 y2], ?_, .cons (w _) (.cons (w _) (.cons (w _) (.cons (w _) .nil)))⟩
    simp [coordText, spaced]
  | true =>
    refine ⟨[fmtF 5 x1, fmtF 5 y1, B "0", fmtF 5 x2, fmtF 5 y2, fmtF 5 r], ?_, .cons (w _) (.cons (w _) (.cons z (.cons (w _) (.cons (w _) (.cons (w _) .nil)))))⟩
    have e : B " 0 " = B " " ++ (B "0" ++ B " ") := by decide
    simp [coordText, spaced, e]

/-- The gradient that a call adds. -/
def gradOf (radial : Bool) (c1 c2 : Int × Int × Int) (x1 y1 x2 y2 r : Rat) : Gradient :=
  { tp := if radial then 3 else 2, clr1Str := spaced ((unitColour c1).map (fmtF 3)), clr2Str := spaced ((unitColour c2).map (fmtF 3)), x1 := x1, y1 := y1, x2 := x2, y2 := y2, r := r }

/-- A gradient call adds one gradient and writes the instructions that paint it. -/
theorem gradient_wrote (f : Fpdf) (radial : Bool) (x y w h : Rat) (c1 c2 : Int × Int × Int) (x1 y1 x2 y2 r : Rat) (hs : f.state = 2) :
    Wrote f (f.areaGradient (if radial then 3 else 2) x y w h c1 c2 x1 y1 x2 y2 r)
      [([], "q"), ([.num 2 (px f x), .num 2 (py f y), .num 2 (px f w), .num 2 (px f (-h))], "re"), ([], "W"), ([], "n"),
       ([.num 5 (px f w), .num 0 0, .num 0 0, .num 5 (px f h), .num 5 (px f x), .num 5 (py f (y + h))], "cm"),
       ([.name (B "Sh" ++ natDec (f.r.gradientList.length + 1))], "sh"), ([], "Q")] ∧
    (f.areaGradient (if radial then 3 else 2) x y w h c1 c2 x1 y1 x2 y2 r).r.gradientList = f.r.gradientList ++ [gradOf radial c1 c2 x1 y1 x2 y2 r] := by
  unfold Fpdf.areaGradient Fpdf.gradient Fpdf.gradientClipStart
  dsimp only
  rw [gradColour, gradColour]
  have h0 : fmtF 0 0 = B "0" := by decide +kernel
  have w1 : Wrote f (f.outf "q %.2f %.2f %.2f %.2f re W n" [.f (x * f.k), .f ((f.p.h - y) * f.k), .f (w * f.k), .f (-h * f.k)])
      [([], "q"), ([.num 2 (px f x), .num 2 (py f y), .num 2 (px f w), .num 2 (px f (-h))], "re"), ([], "W"), ([], "n")] := Wrote.put hs (by reads)
  have r1 := outf_r f "q %.2f %.2f %.2f %.2f re W n" [.f (x * f.k), .f ((f.p.h - y) * f.k), .f (w * f.k), .f (-h * f.k)]
  generalize f.outf "q %.2f %.2f %.2f %.2f re W n" [.f (x * f.k), .f ((f.p.h - y) * f.k), .f (w * f.k), .f (-h * f.k)] = g1 at w1 r1 ⊢
  have hs1 := w1.state.trans hs
  have w2 : Wrote g1 (g1.outf "%.5f 0 0 %.5f %.5f %.5f cm" [.f (w * g1.k), .f (h * g1.k), .f (x * g1.k), .f ((g1.p.h - (y + h)) * g1.k)])
      [([.num 5 (px g1 w), .num 0 0, .num 0 0, .num 5 (px g1 h), .num 5 (px g1 x), .num 5 (py g1 (y + h))], "cm")] := Wrote.put hs1 (by
    simp only [written, List.map_cons, List.map_nil, Want.tok, Proof.px, Proof.py, Fpdf.getConversionRatio, Fpdf.getPageSize, h0]
    exact frag_sprintf rfl rfl)
  have r2 := outf_r g1 "%.5f 0 0 %.5f %.5f %.5f cm" [.f (w * g1.k), .f (h * g1.k), .f (x * g1.k), .f ((g1.p.h - (y + h)) * g1.k)]
  generalize g1.outf "%.5f 0 0 %.5f %.5f %.5f cm" [.f (w * g1.k), .f (h * g1.k), .f (x * g1.k), .f ((g1.p.h - (y + h)) * g1.k)] = g2 at w2 r2 ⊢
  have hs2 := w2.state.trans hs1
  have hr : g2.r = f.r := r2.trans r1
  rw [hr]
  have hg : ∃ g3 : Fpdf, g3 = { g2 with r := { f.r with gradientList := f.r.gradientList ++ [gradOf radial c1 c2 x1 y1 x2 y2 r] } } := ⟨_, rfl⟩
  obtain ⟨g3, hg⟩ := hg
  have w3 : Wrote g2 g3 [] := by subst hg; exact Wrote.upd rfl rfl rfl rfl rfl
  have hl : g3.r.gradientList = f.r.gradientList ++ [gradOf radial c1 c2 x1 y1 x2 y2 r] := by subst hg; rfl
  have hs3 := w3.state.trans hs2
  have e : intDec ((f.r.gradientList.length + 1 : Nat) : Int) = natDec (f.r.gradientList.length + 1) := rfl
  have w4 : Wrote g3 (g3.outf "/Sh%d sh" [.d ((f.r.gradientList.length + 1 : Nat) : Int)]) [([.name (B "Sh" ++ natDec (f.r.gradientList.length + 1))], "sh")] := Wrote.put hs3 (by
    have h : Frag (sprintf "/Sh%d sh" [.d ((f.r.gradientList.length + 1 : Nat) : Int)]) [([.name (B "Sh" ++ intDec ((f.r.gradientList.length + 1 : Nat) : Int))], B "sh")] := frag_sprintf rfl rfl
    rw [e] at h
    exact h)
  have r4 := outf_r g3 "/Sh%d sh" [.d ((f.r.gradientList.length + 1 : Nat) : Int)]
  have w5 := Wrote.put (f := g3.outf "/Sh%d sh" [.d ((f.r.gradientList.length + 1 : Nat) : Int)]) (s := B "Q") (ws := [([], "Q")]) (w4.state.trans hs3) (by have h : Frag (sprintf "Q" []) [([], B "Q")] := frag_sprintf rfl rfl; exact h)
  have hq : ∀ g : Fpdf, g.outs "Q" = g.out (B "Q") := fun g => rfl
  have r5 : ((g3.outf "/Sh%d sh" [.d ((f.r.gradientList.length + 1 : Nat) : Int)]).outs "Q").r = g3.r := (by rw [← r4]; unfold Fpdf.outs Fpdf.out; split <;> rfl)
  subst hg
  refine ⟨?_, ?_⟩
  · have := w1.trans (w2.trans (w3.trans (w4.trans w5)))
    simp only [w1.px, w1.py] at this
    exact this
  · exact (congrArg (fun r => r.gradientList) r5).trans hl

/-- Gradients are only added. -/
def GradLe (f g : Fpdf) : Prop := f.r.gradientList <+: g.r.gradientList

theorem grad_data : DataRel GradLe where
  trans := fun _ _ _ a b => List.IsPrefix.trans a b
  stp := fun f g hb => by
    have h := congrArg (fun f : Fpdf => f.r.gradientList) hb
    have h' : g.r.gradientList = f.r.gradientList := h
    unfold GradLe
    rw [h']

theorem gl_outs (f : Fpdf) (s : String) : (f.outs s).r = f.r := by
  unfold Fpdf.outs Fpdf.out
  (repeat' split) <;> rfl

theorem grad_own (E : Ext) (cb : Cb) (f : Fpdf) (op : Op) (hs : staysOnPage op = true) : GradLe f (f.exec E cb op) := by
  by_cases h : ∃ rad x y w h c1 c2 x1 y1 x2 y2 r, op = .gradient rad x y w h c1 c2 x1 y1 x2 y2 r
  · obtain ⟨rad, x, y, w, h, c1, c2, x1, y1, x2, y2, r, rfl⟩ := h
    unfold GradLe
    show _ <+: (f.areaGradient (if rad then 3 else 2) x y w h c1 c2 x1 y1 x2 y2 r).r.gradientList
    unfold Fpdf.areaGradient Fpdf.gradient Fpdf.gradientClipStart
    dsimp only
    rw [gl_outs, outf_r]
    dsimp only
    rw [outf_r, outf_r]
    exact List.prefix_append _ _
  · have e := foot_get (fun f => f.r.gradientList) E cb f op hs (fun f => by cases op <;> first | rfl | exact absurd ⟨_, _, _, _, _, _, _, _, _, _, _, _, rfl⟩ h)
    unfold GradLe
    rw [e]

/-- **C64** A gradient call on a page writes: save the state, clip to the rectangle asked for, map the unit square to it, paint the shading of a new number, restore. In the file, this shading is a linear or
radial one as asked, between the two colours (components limited to 0..255, as a fraction of 255, to three decimals), with the vector asked for (to five decimals), continued beyond both ends. -/
theorem C64_gradient (E : Ext) (cb cb' : Cb) (o u s : Bytes) (sz : Size) (f0 f : Fpdf) (wf : Bool) (radial : Bool) (x y w h : Rat) (c1 c2 : Int × Int × Int) (x1 y1 x2 y2 r : Rat)
    (h0 : Reach E pagesFirst (Fpdf.new o u s sz) f0) (hs0 : f0.state = 2)
    (h1 : Reach E pagesFirst f0 (f0.exec E cb (.gradient radial x y w h c1 c2 x1 y1 x2 y2 r))) (hf : Reach E pagesFirst (f0.exec E cb (.gradient radial x y w h c1 c2 x1 y1 x2 y2 r)) f)
    (hcb : CbReach E pagesFirst cb') (hok : errOf E cb' f wf = none) (hsize : (fileOf E cb' f wf).length < 10 ^ 10) :
    ∃ version items root info dict n k cl1 cl2 coords,
      Writes f0 (f0.exec E cb (.gradient radial x y w h c1 c2 x1 y1 x2 y2 r))
        [([], "q"), ([.num 2 (px f0 x), .num 2 (py f0 y), .num 2 (px f0 w), .num 2 (px f0 (-h))], "re"), ([], "W"), ([], "n"),
         ([.num 5 (px f0 w), .num 0 0, .num 0 0, .num 5 (px f0 h), .num 5 (px f0 x), .num 5 (py f0 (y + h))], "cm"), ([.name (B "Sh" ++ natDec n)], "sh"), ([], "Q")] ∧
      IsPdf (fileOf E cb' f wf) [] version items root info ∧ (2, Body.plain (B "<<\n" ++ dict ++ B ">>\n")) ∈ items ∧ Names dict (B "Shading") (B "Sh" ++ natDec n) (k + 1) ∧
      (k + 1, Body.plain (B "<</ShadingType " ++ B (if radial then "3" else "2") ++ B " /ColorSpace /DeviceRGB\n/Coords [" ++ coords ++ B "] /Function " ++ decimal k ++ B " 0 R /Extend [true true]>>\n")) ∈ items ∧
      Numbers 5 coords (gradCoords radial x1 y1 x2 y2 r) ∧
      (k, Body.plain (B "<</FunctionType 2 /Domain [0.0 1.0] /C0 [" ++ cl1 ++ B "] /C1 [" ++ cl2 ++ B "] /N 1>>\n")) ∈ items ∧
      Numbers 3 cl1 (unitColour c1) ∧ Numbers 3 cl2 (unitColour c2) := by
  have hall := (h0.trans h1).trans hf
  obtain ⟨last, v, A, P, M, T, d, items, hp, hb⟩ := printed_pf hall hcb hok
  have hpdf := hp.written.pdf hsize
  rw [hb] at hpdf
  have hn : last.n = 2 := hp.op.n.trans (pf_fresh hall).n
  have hl : GradLe (f0.exec E cb (.gradient radial x y w h c1 c2 x1 y1 x2 y2 r)) last := last_data (G := pagesFirst) pagesFirst_open grad_data
    (fun cb f op ho => grad_own E cb f op (helper_stays ho)) (fun f cb op _ hs => grad_own E cb f op hs) hf hcb hp.eq hp.page1
  obtain ⟨e1, e2⟩ := gradient_wrote f0 radial x y w h c1 c2 x1 y1 x2 y2 r hs0
  have hx : last.r.gradientList[f0.r.gradientList.length]? = some (gradOf radial c1 c2 x1 y1 x2 y2 r) := by
    obtain ⟨t, ht⟩ := hl
    rw [← ht, show (f0.exec E cb (.gradient radial x y w h c1 c2 x1 y1 x2 y2 r)).r.gradientList = _ from e2]
    simp
  obtain ⟨k, b0, b1, k0, k1, k2, k3⟩ := hp.written.sh hp.state hn hx
  have k0' : [Body.plain (B "<</FunctionType 2 /Domain [0.0 1.0] /C0 [" ++ spaced ((unitColour c1).map (fmtF 3)) ++ B "] /C1 [" ++ spaced ((unitColour c2).map (fmtF 3)) ++ B "] /N 1>>\n"),
      Body.plain (B "<</ShadingType " ++ decimal (if radial then 3 else 2) ++ B " /ColorSpace /DeviceRGB\n/Coords [" ++ coordText (if radial then 3 else 2) x1 y1 x2 y2 r ++
        B "] /Function " ++ decimal k ++ B " 0 R /Extend [true true]>>\n")] = [b0, b1] := k0
  simp only [List.cons.injEq, and_true] at k0'
  obtain ⟨rfl, rfl⟩ := k0'
  have hd : decimal (if radial then 3 else 2) = B (if radial then "3" else "2") := by cases radial <;> decide +kernel
  rw [hd] at k3
  exact ⟨v, items, _, _, d, f0.r.gradientList.length + 1, k, _, _, _, Wrote.writes e1, hpdf, hp.written.mem_dict, k1, k3, coordText_reads radial x1 y1 x2 y2 r, k2, numbers_fmt 3 _, numbers_fmt 3 _⟩

/-- Non-vacuity: a page with two gradients. -/
def sunset : Fpdf := after (Fpdf.new [] [] [] {}) [.addPage, .gradient false 10 10 50 50 (255, 0, 0) (0, 300, 255) 0 0 1 0 0]

example : Reach {} pagesFirst (Fpdf.new [] [] [] {}) sunset ∧ sunset.state = 2 ∧
    Reach {} pagesFirst sunset (sunset.exec {} {} (.gradient true 70 10 50 50 (255, 255, 255) (0, 0, 128) (1 / 4) (3 / 4) (1 / 4) (3 / 4) 1)) ∧
    errOf {} {} (sunset.exec {} {} (.gradient true 70 10 50 50 (255, 255, 255) (0, 0, 128) (1 / 4) (3 / 4) (1 / 4) (3 / 4) 1)) false = none ∧
    (fileOf {} {} (sunset.exec {} {} (.gradient true 70 10 50 50 (255, 255, 255) (0, 0, 128) (1 / 4) (3 / 4) (1 / 4) (3 / 4) 1)) false).length < 10 ^ 10 :=
  ⟨reach_after pfB_ok _ _ _ (Reach.refl _) (by decide +kernel), by decide +kernel, reach_after pfB_ok _ [.gradient true 70 10 50 50 (255, 255, 255) (0, 0, 128) (1 / 4) (3 / 4) (1 / 4) (3 / 4) 1] _ (Reach.refl _) (by decide +kernel),
    by decide +kernel, by decide +kernel⟩

end Verif.Props
