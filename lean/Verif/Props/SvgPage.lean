import Verif.Props.Drawing
import Verif.Props.Svg
import Verif.Model.SvgWrite
import Mathlib.Tactic.Linarith
import Mathlib.Tactic.LinearCombination
/-
C36 on the page: what `SVGBasicWrite` draws.
-/
namespace Verif.Props
open Verif Verif.Model Verif.Spec Verif.Proof

/-- A point of the page, written with `d` decimals. -/
def ptWant (f : Fpdf) (d : Nat) (p : Pt) : List Want := [.num d (px f p.x), .num d (py f p.y)]

/-- The instructions that draw a stroke. For a quadratic curve: those the library writes, see `C36_quad_false`. -/
def strokeInstrs (f : Fpdf) : Stroke → List (List Want × String)
  | .line p q => [(ptWant f 2 p, "m"), (ptWant f 2 q, "l"), ([], "S")]
  | .cubic p c0 c1 q => [(ptWant f 2 p, "m"), (ptWant f 5 c0 ++ ptWant f 5 c1 ++ ptWant f 5 q, "c"), ([], "S")]
  | .quad p c q => [(ptWant f 2 p, "m"), (ptWant f 5 c ++ ptWant f 5 q, "v"), ([], "S")]

theorem Wrote.strokeInstrs {f g : Fpdf} {ws} (h : Wrote f g ws) : strokeInstrs g = Props.strokeInstrs f := by
  funext s; cases s <;> simp [Props.strokeInstrs, ptWant, h.px, h.py]

theorem wrote_svgCall (E : Ext) (cb : Cb) (f : Fpdf) (hs : f.state = 2) (he : f.err = none) (c : SvgCall) (ss : List Stroke) (h : callStrokes [c] = some ss) :
    Wrote f (f.exec E cb (svgOp c)) (ss.flatMap (strokeInstrs f)) ∧ (f.exec E cb (svgOp c)).err = none := by
  have hout : ∀ (g : Fpdf) (s : Bytes), g.state = 2 → (g.out s).err = g.err := fun g s h => by simp [Fpdf.out, h]
  cases c with
  | setXY x y =>
    simp only [callStrokes, Option.some.injEq] at h
    subst h
    refine ⟨?_, ?_⟩
    · show Wrote f (f.setXY x y) []
      refine Wrote.upd ?_ ?_ ?_ ?_ ?_ <;> (unfold Fpdf.setXY Fpdf.setX Fpdf.setY; repeat' split) <;> rfl
    · show (f.setXY x y).err = none
      rw [← he]
      unfold Fpdf.setXY Fpdf.setX Fpdf.setY; (repeat' split) <;> rfl
  | line a b c d =>
    simp only [callStrokes, Option.map_some, Option.some.injEq] at h
    subst h
    refine ⟨?_, (hout f _ hs).trans he⟩
    have : Wrote f (f.exec E cb (.line a b c d)) [([.num 2 (px f a), .num 2 (py f b)], "m"), ([.num 2 (px f c), .num 2 (py f d)], "l"), ([], "S")] := Wrote.put hs (by reads)
    exact this
  | curveCubic x0 y0 a b x1 y1 c d =>
    simp only [callStrokes, Option.map_some, Option.some.injEq] at h
    subst h
    have h1 := wrote_point f hs x0 y0
    have hs' : (f.point x0 y0).state = 2 := h1.state.trans hs
    refine ⟨?_, ((hout (f.point x0 y0) _ hs').trans (hout f _ hs)).trans he⟩
    show Wrote f ((f.point x0 y0).outf "%.5f %.5f %.5f %.5f %.5f %.5f c %s" [.f (a * f.k), .f ((f.p.h - b) * f.k), .f (c * f.k), .f ((f.p.h - d) * f.k), .f (x1 * f.k), .f ((f.p.h - y1) * f.k), .s (B "S")])
      ([([.num 2 (px f x0), .num 2 (py f y0)], "m")] ++ [([.num 5 (px f a), .num 5 (py f b), .num 5 (px f c), .num 5 (py f d), .num 5 (px f x1), .num 5 (py f y1)], "c"), ([], "S")])
    exact h1.trans (Wrote.put hs' (by reads))
  | curve x0 y0 a b x1 y1 =>
    simp only [callStrokes, Option.map_some, Option.some.injEq] at h
    subst h
    have h1 := wrote_point f hs x0 y0
    have hs' : (f.point x0 y0).state = 2 := h1.state.trans hs
    refine ⟨?_, ((hout (f.point x0 y0) _ hs').trans (hout f _ hs)).trans he⟩
    show Wrote f ((f.point x0 y0).outf "%.5f %.5f %.5f %.5f v %s" [.f (a * f.k), .f ((f.p.h - b) * f.k), .f (x1 * f.k), .f ((f.p.h - y1) * f.k), .s (B "S")])
      ([([.num 2 (px f x0), .num 2 (py f y0)], "m")] ++ [([.num 5 (px f a), .num 5 (py f b), .num 5 (px f x1), .num 5 (py f y1)], "v"), ([], "S")])
    exact h1.trans (Wrote.put hs' (by reads))
  | error => simp [callStrokes] at h

theorem callStrokes_cons (c : SvgCall) (r : List SvgCall) (ss : List Stroke) (h : callStrokes (c :: r) = some ss) :
    ∃ a b, callStrokes [c] = some a ∧ callStrokes r = some b ∧ ss = a ++ b := by
  cases c <;> simp only [callStrokes, Option.map_eq_some_iff, reduceCtorEq] at h ⊢
  case setXY => exact ⟨[], ss, rfl, h, rfl⟩
  all_goals
    obtain ⟨b, hb, rfl⟩ := h
    exact ⟨_, b, by simp; rfl, hb, rfl⟩

theorem wrote_svgCalls (E : Ext) (cb : Cb) (cs : List SvgCall) : ∀ (f : Fpdf) (_ : f.state = 2) (_ : f.err = none) (ss : List Stroke) (_ : callStrokes cs = some ss),
    Wrote f (cs.foldl (fun f c => if f.err = none then f.exec E cb (svgOp c) else f) f) (ss.flatMap (strokeInstrs f)) ∧
      (cs.foldl (fun f c => if f.err = none then f.exec E cb (svgOp c) else f) f).err = none := by
  induction cs with
  | nil => intro f hs he ss h; simp only [callStrokes, Option.some.injEq] at h; subst h; exact ⟨Wrote.refl f, he⟩
  | cons c r ih =>
    intro f hs he ss h
    obtain ⟨a, b, h1, h2, rfl⟩ := callStrokes_cons c r ss h
    obtain ⟨w1, e1⟩ := wrote_svgCall E cb f hs he c a h1
    obtain ⟨w2, e2⟩ := ih _ (w1.state.trans hs) e1 b h2
    rw [List.foldl_cons, if_pos he, List.flatMap_append]
    refine ⟨w1.trans ?_, e2⟩
    rw [← Wrote.strokeInstrs w1]
    exact w2

theorem callStrokes_append (a b : List SvgCall) (u v : List Stroke) (h1 : callStrokes a = some u) (h2 : callStrokes b = some v) : callStrokes (a ++ b) = some (u ++ v) := by
  induction a generalizing u with
  | nil => simp only [callStrokes, Option.some.injEq] at h1; subst h1; exact h2
  | cons c r ih =>
    cases c <;> simp only [callStrokes, Option.map_eq_some_iff, reduceCtorEq, List.cons_append] at h1 ⊢
    case setXY => exact ih u h1
    all_goals
      obtain ⟨w, hw, rfl⟩ := h1
      exact ⟨w ++ v, ih w hw, rfl⟩

theorem svgWriteFrom_append (ox oy sc : Rat) (a b : List Seg) : ∀ (x y sx sy : Rat) (_ : (callStrokes (svgWriteFrom ox oy sc x y sx sy a)).isSome),
    ∃ x' y' sx' sy', svgWriteFrom ox oy sc x y sx sy (a ++ b) = svgWriteFrom ox oy sc x y sx sy a ++ svgWriteFrom ox oy sc x' y' sx' sy' b := by
  induction a with
  | nil => intro x y sx sy _; exact ⟨x, y, sx, sy, rfl⟩
  | cons s r ih =>
    intro x y sx sy h
    simp only [List.cons_append, svgWriteFrom] at h ⊢
    by_cases k1 : s.cmd = cM
    · simp only [if_pos k1, List.cons_append, List.cons.injEq, true_and] at h ⊢; exact ih _ _ _ _ (by simpa [callStrokes] using h)
    by_cases k2 : s.cmd = cL
    · simp only [if_neg k1, if_pos k2, List.cons_append, List.cons.injEq, true_and] at h ⊢; exact ih _ _ _ _ (by simpa [callStrokes] using h)
    by_cases k3 : s.cmd = cC
    · simp only [if_neg k1, if_neg k2, if_pos k3, List.cons_append, List.cons.injEq, true_and] at h ⊢; exact ih _ _ _ _ (by simpa [callStrokes] using h)
    by_cases k4 : s.cmd = cQ
    · simp only [if_neg k1, if_neg k2, if_neg k3, if_pos k4, List.cons_append, List.cons.injEq, true_and] at h ⊢; exact ih _ _ _ _ (by simpa [callStrokes] using h)
    by_cases k5 : s.cmd = cH
    · simp only [if_neg k1, if_neg k2, if_neg k3, if_neg k4, if_pos k5, List.cons_append, List.cons.injEq, true_and] at h ⊢; exact ih _ _ _ _ (by simpa [callStrokes] using h)
    by_cases k6 : s.cmd = cV
    · simp only [if_neg k1, if_neg k2, if_neg k3, if_neg k4, if_neg k5, if_pos k6, List.cons_append, List.cons.injEq, true_and] at h ⊢; exact ih _ _ _ _ (by simpa [callStrokes] using h)
    by_cases k7 : s.cmd = cZ
    · simp only [if_neg k1, if_neg k2, if_neg k3, if_neg k4, if_neg k5, if_neg k6, if_pos k7, List.cons_append, List.cons.injEq, true_and] at h ⊢; exact ih _ _ _ _ (by simpa [callStrokes] using h)
    · simp only [if_neg k1, if_neg k2, if_neg k3, if_neg k4, if_neg k5, if_neg k6, if_neg k7, callStrokes] at h; cases h

/-- A path text that `SVGBasicParse` understands, with its meaning. -/
structure GoodPath (pf : Bytes → Option Rat) (items : List PathItem) (cmds : List SvgCmd) : Prop where
  num : ∀ it ∈ items, ∀ t ∈ it.args ++ it.more.flatten, isNumeral t = true
  more : ∀ it ∈ items, ∀ g ∈ it.more, ∃ t r, g = t :: r ∧ startsPlain t = true
  means : itemsCmds pf items = some cmds
  move : ∃ rel p r, cmds = .move rel p :: r
  ok : syncOK true cmds = true

theorem paths_strokes (pf : Bytes → Option Rat) (ox oy sc : Rat) (paths : List (List PathItem × List SvgCmd)) (hp : ∀ p ∈ paths, GoodPath pf p.1 p.2) :
    ∃ segs, paths.mapM (fun p => pathParse pf (renderPath p.1)) = some segs ∧
      ∀ x y sx sy, callStrokes (svgWriteFrom ox oy sc x y sx sy segs.flatten) =
        some (paths.flatMap fun p => (svgStrokes ⟨0, 0⟩ ⟨0, 0⟩ p.2).map (Stroke.map (place ox oy sc))) := by
  induction paths with
  | nil => exact ⟨[], rfl, fun _ _ _ _ => rfl⟩
  | cons p r ih =>
    obtain ⟨segs, h1, h2⟩ := ih (fun q hq => hp q (List.mem_cons_of_mem _ hq))
    have g := hp p (List.mem_cons_self ..)
    obtain ⟨items, cmds⟩ := p
    obtain ⟨rel, q, cs, rfl⟩ := g.move
    have hs := fun x y sx sy => C36_svg_end_to_end pf items cs rel q ox oy sc x y sx sy g.num g.more g.means g.ok
    obtain ⟨s0, e0, -⟩ := hs 0 0 0 0
    refine ⟨s0 :: segs, by simp [e0, h1], fun x y sx sy => ?_⟩
    obtain ⟨s1, e1, w1⟩ := hs x y sx sy
    obtain rfl : s1 = s0 := by rw [e0] at e1; exact (Option.some.inj e1).symm
    obtain ⟨x', y', sx', sy', e⟩ := svgWriteFrom_append ox oy sc s1 segs.flatten x y sx sy (by rw [w1]; rfl)
    rw [List.flatten_cons, e, List.flatMap_cons]
    exact callStrokes_append _ _ _ _ w1 (h2 _ _ _ _)

/-- **C36** (on the page) Path texts are parsed, and `SVGBasicWrite` of the result writes on the current page, in order, exactly the strokes the SVG standard assigns to
the paths, each point scaled by `scale` and moved to the position at the time of the call; and there is no error. (Same conditions as `C36_svg_end_to_end`.) -/
theorem C36_page (E : Ext) (cb : Cb) (pf : Bytes → Option Rat) (f : Fpdf) (hs : f.state = 2) (he : f.err = none) (scale : Rat)
    (paths : List (List PathItem × List SvgCmd)) (hp : ∀ p ∈ paths, GoodPath pf p.1 p.2) :
    ∃ segs, paths.mapM (fun p => pathParse pf (renderPath p.1)) = some segs ∧
      Writes f (svgBasicWrite E cb f scale segs)
        ((paths.flatMap fun p => (svgStrokes ⟨0, 0⟩ ⟨0, 0⟩ p.2).map (Stroke.map (place f.getXY.1 f.getXY.2 scale))).flatMap (strokeInstrs f)) ∧
      (svgBasicWrite E cb f scale segs).err = none := by
  obtain ⟨segs, h1, h2⟩ := paths_strokes pf f.p.x f.p.y scale paths hp
  have := wrote_svgCalls E cb _ f hs he _ (h2 0 0 0 0)
  exact ⟨segs, h1, Wrote.writes this.1, this.2⟩

/-! ### Quadratic curves -/

/-- A cubic Bézier curve, one coordinate. -/
def cubicAt (p0 c0 c1 p1 t : Rat) : Rat := (1 - t) ^ 3 * p0 + 3 * (1 - t) ^ 2 * t * c0 + 3 * (1 - t) * t ^ 2 * c1 + t ^ 3 * p1
/-- A quadratic Bézier curve, one coordinate. -/
def quadAt (p0 c p1 t : Rat) : Rat := (1 - t) ^ 2 * p0 + 2 * (1 - t) * t * c + t ^ 2 * p1
/-- The curve drawn by the PDF operator `v` (ISO 32000-1, table 59): a cubic curve whose first control point is the current point. -/
def vAt (p0 c p1 t : Rat) : Rat := cubicAt p0 p0 c p1 t

/-- **C36** refuted for quadratic curves (and for `Curve`, documented to draw a quadratic Bézier curve): the library writes its control point as the operand of the operator `v`
(`C52_curve`, `C36_page`), which draws the quadratic curve only if start, control and end points are all the same. -/
theorem C36_quad_false (p0 c p1 : Rat) (h : ∀ t, 0 ≤ t → t ≤ 1 → vAt p0 c p1 t = quadAt p0 c p1 t) : c = p0 ∧ p1 = p0 := by
  have h1 := h (1 / 2) (by norm_num) (by norm_num)
  have h2 := h (1 / 4) (by norm_num) (by norm_num)
  unfold vAt cubicAt quadAt at h1 h2
  constructor <;> linarith

/-- A quadratic curve is the cubic one with the control points two thirds of the way to its own: what should be written. -/
theorem C36_quad_as_cubic (p0 c p1 t : Rat) : quadAt p0 c p1 t = cubicAt p0 (p0 + 2 / 3 * (c - p0)) (p1 + 2 / 3 * (c - p1)) p1 t := by
  unfold quadAt cubicAt; ring

/-- Non-vacuity: a document with a page and two paths. -/
example :
    let f := ((Fpdf.new (B "P") (B "mm") (B "A4") ⟨0, 0⟩).exec {} {} .addPage).exec {} {} (.setXY 10 20)
    let pf : Bytes → Option Rat := fun t => (readNat t).map fun r => (r.1 : Rat)
    f.state = 2 ∧ f.err = none ∧
      (pathParse pf (B "M1,2L3,4z") >>= fun a => pathParse pf (B "M0,0c1,1,2,2,3,3") >>= fun b => some (svgBasicWrite {} {} f 2 [a, b]).getXY) = some (10, 20) := by
  decide +kernel

/-- Non-vacuity: `M1,2L3,4,5,6z` and what it means. -/
example : GoodPath (fun t => (readNat t).map fun r => (r.1 : Rat)) [⟨77, [B "1", B "2"], []⟩, ⟨76, [B "3", B "4"], [[B "5", B "6"]]⟩, ⟨122, [], []⟩]
    [.move false ⟨1, 2⟩, .line false ⟨3, 4⟩, .line false ⟨5, 6⟩, .close] where
  num := by decide +kernel
  more := by
    intro it hit g hg
    simp only [List.mem_cons, List.not_mem_nil, or_false] at hit
    rcases hit with rfl | rfl | rfl
    · cases hg
    · simp only [List.mem_cons, List.not_mem_nil, or_false] at hg; subst hg; exact ⟨B "5", [B "6"], rfl, by decide +kernel⟩
    · cases hg
  means := by decide +kernel
  move := ⟨false, ⟨1, 2⟩, _, rfl⟩
  ok := by decide +kernel

end Verif.Props
