import Verif.Proof.Drawing
import Verif.Proof.Emits
import Verif.Props.Settings
import Mathlib.Tactic.Ring
import Mathlib.Tactic.FieldSimp
import Mathlib.Tactic.LinearCombination
/-
C38: geometric transformations. C52: units and coordinates. C53: painting operators.
-/
namespace Verif.Props
open Verif Verif.Model Verif.Spec Verif.Proof

/-- On the current page, a call writes something that a reader understands as exactly the instructions `ws`. -/
def Writes (f g : Fpdf) (ws : List (List Want × String)) : Prop :=
  ∃ line, g.pages = modifyAt f.page (· ++ line) f.pages ∧ Understood line ws

theorem Wrote.writes {f g : Fpdf} {ws : List (List Want × String)} (h : Wrote f g ws) : Writes f g ws := by
  obtain ⟨l, is, h1, h2, h3⟩ := h.line
  exact ⟨l, h1, by unfold Understood; rw [h2.instrs]; exact h3⟩

/-! ### Coordinates -/

/-- **C52** Units and points: the conversions are inverse to each other, in every document created without error. -/
theorem C52_inverse (E : Ext) (o u s : Bytes) (sz : Size) (hn : (Fpdf.new o u s sz).err = none) (f : Fpdf) (h : Reach E noClose (Fpdf.new o u s sz) f) (v : Rat) :
    f.pointConvert (f.unitToPointConvert v) = v ∧ f.unitToPointConvert (f.pointConvert v) = v := by
  have hk : f.k ≠ 0 := by rw [(reach_fnt h).k]; exact (new_fontOk hn).k
  unfold Fpdf.pointConvert Fpdf.unitToPointConvert
  constructor <;> field_simp

/-- Painting styles as documented: outline, fill, both; with `*`, by the even-odd rule. -/
def painting : List (String × String) :=
  [("", "S"), ("D", "S"), ("F", "f"), ("F*", "f*"), ("FD", "B"), ("DF", "B"), ("FD*", "B*"), ("DF*", "B*")]

/-- The painting operator of a style. -/
def Paints (style : Bytes) (op : String) : Prop := ∃ s, (s, op) ∈ painting ∧ toUpper style = B s

theorem fillDrawOp_paints {style : Bytes} {op : String} (h : Paints style op) : fillDrawOp style = B op ∧ ∃ s, (s, op) ∈ painting := by
  obtain ⟨s, h1, h2⟩ := h
  unfold fillDrawOp
  dsimp only
  rw [h2]
  refine ⟨?_, s, h1⟩
  simp only [painting, List.mem_cons, Prod.mk.injEq, List.not_mem_nil, or_false] at h1
  rcases h1 with ⟨rfl, rfl⟩ | ⟨rfl, rfl⟩ | ⟨rfl, rfl⟩ | ⟨rfl, rfl⟩ | ⟨rfl, rfl⟩ | ⟨rfl, rfl⟩ | ⟨rfl, rfl⟩ | ⟨rfl, rfl⟩ <;> rfl

/-- Any property of the operator is proved for the five operators. -/
theorem paint_cases {P : String → Prop} (h1 : P "S") (h2 : P "f") (h3 : P "f*") (h4 : P "B") (h5 : P "B*") {style : Bytes} {op : String} (h : Paints style op) : P op := by
  obtain ⟨s, h, -⟩ := h
  simp only [painting, List.mem_cons, Prod.mk.injEq, List.not_mem_nil, or_false] at h
  rcases h with ⟨rfl, rfl⟩ | ⟨rfl, rfl⟩ | ⟨rfl, rfl⟩ | ⟨rfl, rfl⟩ | ⟨rfl, rfl⟩ | ⟨rfl, rfl⟩ | ⟨rfl, rfl⟩ | ⟨rfl, rfl⟩ <;> assumption

section
variable (E : Ext) (cb : Cb) (f : Fpdf) (hs : f.state = 2)
include hs

/-- **C52** `Line`. -/
theorem C52_line (x1 y1 x2 y2 : Rat) : Writes f (f.exec E cb (.line x1 y1 x2 y2))
    [([.num 2 (px f x1), .num 2 (py f y1)], "m"), ([.num 2 (px f x2), .num 2 (py f y2)], "l"), ([], "S")] :=
  Wrote.writes (Wrote.put hs (by reads))

/-- **C52/C53** `Rect`: the upper left corner, width and height downwards, and the painting operator. -/
theorem C52_rect (x y w h : Rat) (style : Bytes) (op : String) (hst : Paints style op) : Writes f (f.exec E cb (.rect x y w h style))
    [([.num 2 (px f x), .num 2 (py f y), .num 2 (px f w), .num 2 (px f (-h))], "re"), ([], op)] := by
  show Writes f (f.rect x y w h style) _
  unfold Fpdf.rect
  rw [(fillDrawOp_paints hst).1]
  refine paint_cases (P := fun op => Writes f (f.outf "%.2f %.2f %.2f %.2f re %s" [.f (x * f.k), .f ((f.p.h - y) * f.k), .f (w * f.k), .f (-h * f.k), .s (B op)])
    [([.num 2 (px f x), .num 2 (py f y), .num 2 (px f w), .num 2 (px f (-h))], "re"), ([], op)]) ?_ ?_ ?_ ?_ ?_ hst
  all_goals exact Wrote.writes (Wrote.put hs (by reads))

theorem wrote_point (x y : Rat) : Wrote f (f.point x y) [([.num 2 (px f x), .num 2 (py f y)], "m")] := Wrote.put hs (by reads)

theorem wrote_curve (a b c d x y : Rat) : Wrote f (f.curve a b c d x y)
    [([.num 5 (px f a), .num 5 (py f b), .num 5 (px f c), .num 5 (py f d), .num 5 (px f x), .num 5 (py f y)], "c")] := Wrote.put hs (by reads)

theorem wrote_paint (style : Bytes) (op : String) (hst : Paints style op) : Wrote f (f.drawPath style) [([], op)] ∧ Wrote f (f.out (fillDrawOp style)) [([], op)] := by
  unfold Fpdf.drawPath
  rw [(fillDrawOp_paints hst).1]
  have hp : sprintfB (B op) [] = B op := paint_cases (P := fun op => sprintfB (B op) [] = B op) (by decide +kernel) (by decide +kernel) (by decide +kernel) (by decide +kernel) (by decide +kernel) hst
  rw [hp]
  refine ⟨Wrote.put hs ?_, Wrote.put hs ?_⟩
  all_goals
    rw [← hp]
    refine paint_cases (P := fun op => Frag (sprintfB (B op) []) (written [([], op)])) ?_ ?_ ?_ ?_ ?_ hst
    all_goals
      simp only [written, List.map_cons, List.map_nil]
      exact frag_sprintf (fmt := _) rfl rfl

/-- **C52** `MoveTo`: it also moves the cursor. -/
theorem C52_moveTo (x y : Rat) : Writes f (f.exec E cb (.moveTo x y)) [([.num 2 (px f x), .num 2 (py f y)], "m")] ∧ (f.exec E cb (.moveTo x y)).getXY = (x, y) :=
  ⟨Wrote.writes ((wrote_point f hs x y).trans (b := []) (Wrote.upd rfl rfl rfl rfl rfl)), rfl⟩

/-- **C52** `LineTo`. -/
theorem C52_lineTo (x y : Rat) : Writes f (f.exec E cb (.lineTo x y)) [([.num 2 (px f x), .num 2 (py f y)], "l")] ∧ (f.exec E cb (.lineTo x y)).getXY = (x, y) :=
  ⟨Wrote.writes (Wrote.trans (a := [([.num 2 (px f x), .num 2 (py f y)], "l")]) (b := []) (Wrote.put hs (by reads)) (Wrote.upd rfl rfl rfl rfl rfl)), rfl⟩

/-- **C52** `CurveTo`. -/
theorem C52_curveTo (a b x y : Rat) : Writes f (f.exec E cb (.curveTo a b x y)) [([.num 5 (px f a), .num 5 (py f b), .num 5 (px f x), .num 5 (py f y)], "v")] ∧
    (f.exec E cb (.curveTo a b x y)).getXY = (x, y) :=
  ⟨Wrote.writes (Wrote.trans (a := [([.num 5 (px f a), .num 5 (py f b), .num 5 (px f x), .num 5 (py f y)], "v")]) (b := []) (Wrote.put hs (by reads)) (Wrote.upd rfl rfl rfl rfl rfl)), rfl⟩

/-- **C52** `CurveBezierCubicTo`. -/
theorem C52_curveCubicTo (a b c d x y : Rat) : Writes f (f.exec E cb (.curveBezierCubicTo a b c d x y))
    [([.num 5 (px f a), .num 5 (py f b), .num 5 (px f c), .num 5 (py f d), .num 5 (px f x), .num 5 (py f y)], "c")] ∧
    (f.exec E cb (.curveBezierCubicTo a b c d x y)).getXY = (x, y) :=
  ⟨Wrote.writes ((wrote_curve f hs a b c d x y).trans (b := []) (Wrote.upd rfl rfl rfl rfl rfl)), rfl⟩

/-- **C53** `ClosePath` and `DrawPath`: `DrawPath` writes the one painting operator of its style, nothing else. -/
theorem C53_drawPath (style : Bytes) (op : String) (hst : Paints style op) : Writes f (f.exec E cb .closePath) [([], "h")] ∧ Writes f (f.exec E cb (.drawPath style)) [([], op)] :=
  ⟨Wrote.writes (Wrote.put hs (by reads)), Wrote.writes (wrote_paint f hs style op hst).1⟩

/-- **C52/C53** `Curve`: a quadratic curve, painted once. -/
theorem C52_curve (x0 y0 a b x y : Rat) (style : Bytes) (op : String) (hst : Paints style op) : Writes f (f.exec E cb (.curve x0 y0 a b x y style))
    [([.num 2 (px f x0), .num 2 (py f y0)], "m"), ([.num 5 (px f a), .num 5 (py f b), .num 5 (px f x), .num 5 (py f y)], "v"), ([], op)] := by
  show Writes f (f.curveQuad x0 y0 a b x y style) _
  unfold Fpdf.curveQuad
  rw [(fillDrawOp_paints hst).1]
  have h1 := wrote_point f hs x0 y0
  have hs' : (f.point x0 y0).state = 2 := h1.state.trans hs
  refine paint_cases (P := fun op => Writes f ((f.point x0 y0).outf "%.5f %.5f %.5f %.5f v %s" [.f (a * f.k), .f ((f.p.h - b) * f.k), .f (x * f.k), .f ((f.p.h - y) * f.k), .s (B op)])
    [([.num 2 (px f x0), .num 2 (py f y0)], "m"), ([.num 5 (px f a), .num 5 (py f b), .num 5 (px f x), .num 5 (py f y)], "v"), ([], op)]) ?_ ?_ ?_ ?_ ?_ hst
  all_goals exact Wrote.writes (h1.trans (Wrote.put hs' (by reads)))

/-- **C52/C53** `CurveBezierCubic`: a cubic curve, painted once. -/
theorem C52_curveCubic (x0 y0 a b c d x y : Rat) (style : Bytes) (op : String) (hst : Paints style op) : Writes f (f.exec E cb (.curveBezierCubic x0 y0 a b c d x y style))
    [([.num 2 (px f x0), .num 2 (py f y0)], "m"), ([.num 5 (px f a), .num 5 (py f b), .num 5 (px f c), .num 5 (py f d), .num 5 (px f x), .num 5 (py f y)], "c"), ([], op)] := by
  show Writes f (f.curveBezierCubic x0 y0 a b c d x y style) _
  unfold Fpdf.curveBezierCubic
  rw [(fillDrawOp_paints hst).1]
  have h1 := wrote_point f hs x0 y0
  have hs' : (f.point x0 y0).state = 2 := h1.state.trans hs
  refine paint_cases (P := fun op => Writes f ((f.point x0 y0).outf "%.5f %.5f %.5f %.5f %.5f %.5f c %s" [.f (a * f.k), .f ((f.p.h - b) * f.k), .f (c * f.k), .f ((f.p.h - d) * f.k), .f (x * f.k), .f ((f.p.h - y) * f.k), .s (B op)])
    [([.num 2 (px f x0), .num 2 (py f y0)], "m"), ([.num 5 (px f a), .num 5 (py f b), .num 5 (px f c), .num 5 (py f d), .num 5 (px f x), .num 5 (py f y)], "c"), ([], op)]) ?_ ?_ ?_ ?_ ?_ hst
  all_goals exact Wrote.writes (h1.trans (Wrote.put hs' (by reads)))

/-- A line to a point, as `Polygon` writes it. -/
def lineInstr (f : Fpdf) (p : Rat × Rat) : List Want × String := ([.num 5 (px f p.1), .num 5 (py f p.2)], "l")

theorem wrote_edges (pts : List (Rat × Rat)) : Wrote f (pts.foldl (fun f pt => f.outf "%.5f %.5f l " [.f (pt.1 * f.k), .f ((f.p.h - pt.2) * f.k)]) f) (pts.map (lineInstr f)) := by
  induction pts generalizing f with
  | nil => exact Wrote.refl f
  | cons p r ih =>
    have h1 : Wrote f (f.outf "%.5f %.5f l " [.f (p.1 * f.k), .f ((f.p.h - p.2) * f.k)]) [lineInstr f p] := Wrote.put hs (by unfold lineInstr; reads)
    have h2 := ih _ (h1.state.trans hs)
    have e : lineInstr (f.outf "%.5f %.5f l " [.f (p.1 * f.k), .f ((f.p.h - p.2) * f.k)]) = lineInstr f := funext fun q => by unfold lineInstr; rw [h1.px, h1.py]
    rw [e] at h2
    exact h1.trans h2

/-- **C52/C53** `Polygon`: from the first vertex to every other one in order and back, painted once. -/
theorem C52_polygon (p0 : Rat × Rat) (rest : List (Rat × Rat)) (hl : rest.length ≥ 2) (style : Bytes) (op : String) (hst : Paints style op) :
    Writes f (f.exec E cb (.polygon (p0 :: rest) style))
      ([([.num 2 (px f p0.1), .num 2 (py f p0.2)], "m")] ++ rest.map (lineInstr f) ++ [lineInstr f p0] ++ [([], op)]) := by
  show Writes f (f.polygon (p0 :: rest) style) _
  unfold Fpdf.polygon
  dsimp only
  rw [if_pos (show (p0 :: rest).length > 2 by simp only [List.length_cons]; omega)]
  have h1 := wrote_point f hs p0.1 p0.2
  have h2 := h1.trans (wrote_edges _ (h1.state.trans hs) rest)
  have e : lineInstr (f.point p0.1 p0.2) = lineInstr f := funext fun q => by unfold lineInstr; rw [h1.px, h1.py]
  rw [e] at h2
  generalize rest.foldl (fun f pt => f.outf "%.5f %.5f l " [.f (pt.1 * f.k), .f ((f.p.h - pt.2) * f.k)]) (f.point p0.1 p0.2) = g at h2 ⊢
  have h3 : Wrote g (g.outf "%.5f %.5f l " [.f (p0.1 * g.k), .f ((g.p.h - p0.2) * g.k)]) [lineInstr g p0] := Wrote.put (h2.state.trans hs) (by unfold lineInstr; reads)
  have e3 : lineInstr g p0 = lineInstr f p0 := by unfold lineInstr; rw [h2.px, h2.py]
  rw [e3] at h3
  have h4 := h2.trans h3
  exact Wrote.writes (h4.trans (wrote_paint _ (h4.state.trans hs) style op hst).1)

/-- **C52** `ClipRect`: saves the graphics state, clips to the rectangle; the outline is drawn on request. -/
theorem C52_clipRect (x y w h : Rat) (outline : Bool) : Writes f (f.exec E cb (.clipRect x y w h outline))
    [([], "q"), ([.num 2 (px f x), .num 2 (py f y), .num 2 (px f w), .num 2 (px f (-h))], "re"), ([], "W"), ([], if outline then "S" else "n")] := by
  refine Wrote.writes (Wrote.trans (a := []) (g := { f with clipNest := f.clipNest + 1 }) (Wrote.upd rfl rfl rfl rfl rfl) ?_)
  cases outline
  · exact Wrote.put (f := { f with clipNest := f.clipNest + 1 }) hs (by simp only [Bool.false_eq_true, if_false]; reads)
  · exact Wrote.put (f := { f with clipNest := f.clipNest + 1 }) hs (by simp only [if_true]; reads)

/-! ### Transformations -/

/-- A transformation matrix. -/
structure Mat where
  (a b c d e f : Rat)

/-- Its action on a point (ISO 32000-1, 8.3.3). -/
def Mat.act (m : Mat) (p : Rat × Rat) : Rat × Rat := (m.a * p.1 + m.c * p.2 + m.e, m.b * p.1 + m.d * p.2 + m.f)

/-- The instruction that applies a matrix. -/
def Mat.cm (m : Mat) : List Want × String := ([.num 5 m.a, .num 5 m.b, .num 5 m.c, .num 5 m.d, .num 5 m.e, .num 5 m.f], "cm")

/-- A point of the page, given in the document's units from the upper left corner, in PDF coordinates. -/
def pt (f : Fpdf) (x y : Rat) : Rat × Rat := (px f x, py f y)

omit hs in
theorem wrote_transform (f : Fpdf) (hs : f.state = 2) (ht : f.transformNest > 0) (a b c d e g : Rat) : Wrote f (f.transform a b c d e g) [Mat.cm ⟨a, b, c, d, e, g⟩] := by
  unfold Fpdf.transform
  rw [if_pos ht]
  exact Wrote.put hs (by unfold Mat.cm; reads)

/-- **C38** `TransformScale` (and the mirror functions, with -100 per cent): the centre stays, distances from it are multiplied. -/
theorem C38_scale (ht : f.transformNest > 0) (sw sh x y : Rat) (h0 : sw ≠ 0 ∧ sh ≠ 0) :
    ∃ m : Mat, Writes f (f.exec E cb (.transformScale sw sh x y)) [m.cm] ∧ ∀ dx dy, m.act (pt f (x + dx) (y + dy)) = pt f (x + sw / 100 * dx) (y + sh / 100 * dy) := by
  refine ⟨⟨sw / 100, 0, 0, sh / 100, px f x * (1 - sw / 100), py f y * (1 - sh / 100)⟩, ?_, fun dx dy => ?_⟩
  · refine Wrote.writes ?_
    show Wrote f (f.transformScale sw sh x y) _
    unfold Fpdf.transformScale
    rw [if_neg (by tauto)]
    exact wrote_transform f hs ht _ _ _ _ _ _
  · unfold Mat.act pt px py
    dsimp only
    exact Prod.ext (by dsimp only; ring) (by dsimp only; ring)

/-- **C38** `TransformTranslate` (`X`, `Y`) adds the offset. -/
theorem C38_translate (ht : f.transformNest > 0) (tx ty : Rat) :
    ∃ m : Mat, Writes f (f.exec E cb (.transformTranslate tx ty)) [m.cm] ∧ ∀ x y, m.act (pt f x y) = pt f (x + tx) (y + ty) := by
  refine ⟨⟨1, 0, 0, 1, tx * f.k, -ty * f.k⟩, Wrote.writes (wrote_transform f hs ht _ _ _ _ _ _), fun x y => ?_⟩
  unfold Mat.act pt px py Fpdf.getConversionRatio
  dsimp only
  exact Prod.ext (by dsimp only; ring) (by dsimp only; ring)

/-- **C38** `TransformRotate`: the centre stays, and everything is turned counter-clockwise about it by the angle whose cosine and sine are used (`y` counts downwards). -/
theorem C38_rotate (ht : f.transformNest > 0) (angle x y : Rat) :
    ∃ m : Mat, Writes f (f.exec E cb (.transformRotate angle x y)) [m.cm] ∧
      ∀ dx dy, m.act (pt f (x + dx) (y + dy)) = pt f (x + (E.T.cos angle * dx + E.T.sin angle * dy)) (y + (-E.T.sin angle * dx + E.T.cos angle * dy)) := by
  refine ⟨_, Wrote.writes (wrote_transform f hs ht _ _ _ _ _ _), fun dx dy => ?_⟩
  unfold Mat.act pt px py Fpdf.getConversionRatio Fpdf.getPageSize
  dsimp only
  exact Prod.ext (by dsimp only; ring) (by dsimp only; ring)

/-- **C38** `TransformSkew` (`X`, `Y`): the centre stays, horizontal lines are sheared by the tangent of the one angle, vertical ones by that of the other. -/
theorem C38_skew (ht : f.transformNest > 0) (ax ay x y : Rat) (ha : -90 < ax ∧ ax < 90 ∧ -90 < ay ∧ ay < 90) :
    ∃ m : Mat, Writes f (f.exec E cb (.transformSkew ax ay x y)) [m.cm] ∧
      ∀ dx dy, m.act (pt f (x + dx) (y + dy)) = pt f (x + (dx - E.T.tan ax * dy)) (y + (dy - E.T.tan ay * dx)) := by
  refine ⟨⟨1, E.T.tan ay, E.T.tan ax, 1, -E.T.tan ax * py f y, -E.T.tan ay * px f x⟩, ?_, fun dx dy => ?_⟩
  · refine Wrote.writes ?_
    show Wrote f (f.transformSkew E.T ax ay x y) _
    unfold Fpdf.transformSkew
    rw [if_neg (by rintro (h | h | h | h) <;> linarith [ha.1, ha.2.1, ha.2.2.1, ha.2.2.2])]
    exact wrote_transform f hs ht _ _ _ _ _ _
  · unfold Mat.act pt px py
    dsimp only
    exact Prod.ext (by dsimp only; ring) (by dsimp only; ring)

/-- **C38** Mirroring (`TransformMirrorHorizontal`, `…Vertical`, `…Point`: scaling by -100 per cent in one or both directions) maps a point to its mirror image, so that
mirroring twice is the identity. -/
theorem C38_mirror (ht : f.transformNest > 0) (sx sy : Bool) (x y : Rat) :
    ∃ m : Mat, Writes f (f.exec E cb (.transformScale (if sx then -100 else 100) (if sy then -100 else 100) x y)) [m.cm] ∧
      (∀ dx dy, m.act (pt f (x + dx) (y + dy)) = pt f (if sx then x - dx else x + dx) (if sy then y - dy else y + dy)) ∧ ∀ p, m.act (m.act p) = p := by
  obtain ⟨m, h1, h2⟩ := C38_scale E cb f hs ht (if sx then -100 else 100) (if sy then -100 else 100) x y (by split <;> split <;> norm_num)
  refine ⟨⟨if sx then -1 else 1, 0, 0, if sy then -1 else 1, if sx then 2 * px f x else 0, if sy then 2 * py f y else 0⟩, ?_, fun dx dy => ?_, fun p => ?_⟩
  · refine Wrote.writes ?_
    show Wrote f (f.transformScale _ _ x y) _
    unfold Fpdf.transformScale
    rw [if_neg (by split <;> split <;> norm_num)]
    have := wrote_transform f hs ht ((if sx then -100 else 100) / 100) 0 0 ((if sy then -100 else 100) / 100) (px f x * (1 - (if sx then -100 else 100) / 100)) (py f y * (1 - (if sy then -100 else 100) / 100))
    have e1 : (if sx then (-100 : Rat) else 100) / 100 = if sx then -1 else 1 := by split <;> norm_num
    have e2 : (if sy then (-100 : Rat) else 100) / 100 = if sy then -1 else 1 := by split <;> norm_num
    have e3 : px f x * (1 - if sx then (-1 : Rat) else 1) = if sx then 2 * px f x else 0 := by split <;> ring
    have e4 : py f y * (1 - if sy then (-1 : Rat) else 1) = if sy then 2 * py f y else 0 := by split <;> ring
    dsimp only
    show Wrote f (f.transform _ 0 0 _ (px f x * _) (py f y * _)) _
    rw [e1, e2, e3, e4] at this
    rw [e1, e2, e3, e4]
    exact this
  · unfold Mat.act pt px py
    dsimp only
    refine Prod.ext ?_ ?_
    · dsimp only; split <;> ring
    · dsimp only; split <;> ring
  · unfold Mat.act
    cases sx <;> cases sy <;> exact Prod.ext (by simp) (by simp)

/-- **C38** `TransformMirrorLine` writes two matrices, applied one after the other; together, if the cosine and sine used are those of twice the angle (turned by 90 degrees),
they keep the points of the line through `(x, y)` at that angle (counter-clockwise from the right) and map what is perpendicular to it to its opposite. -/
theorem C38_mirrorLine (ht : f.transformNest > 0) (angle x y c s : Rat) (h1 : c * c + s * s = 1)
    (hc : E.T.cos (-2 * (angle - 90)) = s * s - c * c) (hsn : E.T.sin (-2 * (angle - 90)) = 2 * s * c) :
    ∃ m n : Mat, Writes f (f.exec E cb (.transformMirrorLine angle x y)) [m.cm, n.cm] ∧
      ∀ u v, m.act (n.act (pt f (x + (u * c + v * s)) (y + (v * c - u * s)))) = pt f (x + (u * c - v * s)) (y + (-(v * c) - u * s)) := by
  have hm := wrote_transform f hs ht (-100 / 100) 0 0 (100 / 100) (px f x * (1 - -100 / 100)) (py f y * (1 - 100 / 100))
  have e0 : f.transformScale (-100) 100 x y = f.transform (-100 / 100) 0 0 (100 / 100) (px f x * (1 - -100 / 100)) (py f y * (1 - 100 / 100)) := by
    unfold Fpdf.transformScale
    rw [if_neg (by norm_num)]
    rfl
  refine ⟨⟨-100 / 100, 0, 0, 100 / 100, px f x * (1 - -100 / 100), py f y * (1 - 100 / 100)⟩,
    ⟨E.T.cos (-2 * (angle - 90)), E.T.sin (-2 * (angle - 90)), -E.T.sin (-2 * (angle - 90)), E.T.cos (-2 * (angle - 90)),
      px f x + E.T.sin (-2 * (angle - 90)) * py f y - E.T.cos (-2 * (angle - 90)) * px f x, py f y - E.T.cos (-2 * (angle - 90)) * py f y - E.T.sin (-2 * (angle - 90)) * px f x⟩, ?_, ?_⟩
  · refine Wrote.writes ?_
    show Wrote f ((f.transformScale (-100) 100 x y).transformRotate E.T (-2 * (angle - 90)) x y) _
    rw [e0]
    have hn : (f.transform (-100 / 100) 0 0 (100 / 100) (px f x * (1 - -100 / 100)) (py f y * (1 - 100 / 100))).transformNest > 0 := by
      unfold Fpdf.transform
      rw [if_pos ht]
      unfold Fpdf.outf Fpdf.out
      rw [if_pos hs]
      exact ht
    generalize f.transform (-100 / 100) 0 0 (100 / 100) (px f x * (1 - -100 / 100)) (py f y * (1 - 100 / 100)) = g at hm hn ⊢
    have h2 := wrote_transform g (hm.state.trans hs) hn (E.T.cos (-2 * (angle - 90))) (E.T.sin (-2 * (angle - 90))) (-E.T.sin (-2 * (angle - 90))) (E.T.cos (-2 * (angle - 90)))
      (px g x + E.T.sin (-2 * (angle - 90)) * py g y - E.T.cos (-2 * (angle - 90)) * px g x) (py g y - E.T.cos (-2 * (angle - 90)) * py g y - E.T.sin (-2 * (angle - 90)) * px g x)
    have h3 := hm.trans h2
    have e1 : g.transformRotate E.T (-2 * (angle - 90)) x y = g.transform (E.T.cos (-2 * (angle - 90))) (E.T.sin (-2 * (angle - 90))) (-E.T.sin (-2 * (angle - 90))) (E.T.cos (-2 * (angle - 90)))
      (px g x + E.T.sin (-2 * (angle - 90)) * py g y - E.T.cos (-2 * (angle - 90)) * px g x) (py g y - E.T.cos (-2 * (angle - 90)) * py g y - E.T.sin (-2 * (angle - 90)) * px g x) := rfl
    rw [e1]
    rw [hm.px x, hm.py y] at h3 ⊢
    exact h3
  · intro u v
    rw [hc, hsn]
    unfold Mat.act pt px py
    dsimp only
    refine Prod.ext ?_ ?_
    · dsimp only; linear_combination (f.getConversionRatio * (u * c - v * s)) * h1
    · dsimp only; linear_combination (f.getConversionRatio * (u * s + v * c)) * h1

end

/-- **C38** The transformation of a page is only changed between `TransformBegin` and `TransformEnd`: elsewhere, the calls fail and write nothing. -/
theorem C38_context (E : Ext) (cb : Cb) (f : Fpdf) (h0 : f.transformNest = 0) (a b c d e g : Rat) :
    (f.exec E cb (.transform a b c d e g)).err ≠ none ∧ (f.exec E cb (.transform a b c d e g)).pages = f.pages ∧
    (f.exec E cb .transformEnd).err ≠ none ∧ (f.exec E cb .transformEnd).pages = f.pages := by
  have e : f.exec E cb (.transform a b c d e g) = f.transform a b c d e g := rfl
  have e2 : f.exec E cb .transformEnd = f.transformEnd := rfl
  rw [e, e2]
  unfold Fpdf.transform Fpdf.transformEnd
  have hn : ¬ f.transformNest > 0 := by omega
  rw [if_neg hn, if_neg hn]
  refine ⟨?_, ?_, by simp [Fpdf.assignErr], rfl⟩
  · split
    · simp [Fpdf.assignErr]
    · assumption
  · split <;> rfl

/-- A document with a page. -/
def onPage : Fpdf := after (Fpdf.new [] (B "mm") (B "A4") {}) [.addPage, .transformBegin]

/-- Non-vacuity of C38, C52, C53: a page in millimetres, inside a transformation. -/
example : onPage.err = none ∧ onPage.state = 2 ∧ onPage.transformNest > 0 ∧ Paints (B "df") "B" ∧ px onPage 254 = 720 ∧
    Understood (B "q\n1.00 -2.50 m 3 4 l S\n") [([], "q"), ([.num 2 1, .num 2 (-5 / 2)], "m"), ([.num 0 3, .num 0 4], "l"), ([], "S")] := by
  refine ⟨by decide +kernel, by decide +kernel, by decide +kernel, ⟨"DF", by decide, by decide +kernel⟩, by decide +kernel, ?_⟩
  have e : instrs (B "q\n1.00 -2.50 m 3 4 l S\n") = [([], B "q"), ([.word (B "1.00"), .word (B "-2.50")], B "m"), ([.word (B "3"), .word (B "4")], B "l"), ([], B "S")] := by decide +kernel
  unfold Understood
  rw [e]
  have h : ∀ {w : Bytes} {p : Nat} {q : Rat}, readReal w = some q → Meets (.word w) (.num p q) := by
    intro w p q h
    refine ⟨q, h, ?_⟩
    rw [sub_self, abs_zero]; positivity
  refine .cons ⟨.nil, rfl⟩ (.cons ⟨.cons (h (by decide +kernel)) (.cons (h (by decide +kernel)) .nil), rfl⟩ (.cons ⟨.cons (h (by decide +kernel)) (.cons (h (by decide +kernel)) .nil), rfl⟩ (.cons ⟨.nil, rfl⟩ .nil)))

/-- **C53** An undocumented style is written as it is: it can put any instruction on the page. -/
theorem C53_style_false : ∃ style : Bytes, ∃ f : Fpdf, f.state = 2 ∧ (f.exec {} {} (.drawPath style)).pages = modifyAt f.page (· ++ B "BT (x) Tj ET\n") f.pages :=
  ⟨B "BT (x) Tj ET", onPage, by decide +kernel, by decide +kernel⟩

end Verif.Props
