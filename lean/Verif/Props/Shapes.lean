import Verif.Props.Drawing
/-
C71: curved shapes and clipping regions.
-/
namespace Verif.Props
open Verif Verif.Model Verif.Spec Verif.Proof

/-! ### What is expected -/

/-- The point of an ellipse with centre `c` and half axes `a`, `b` at an angle (PDF coordinates: y upwards). -/
def onEllipse (T : Trig) (c : Rat × Rat) (a b t : Rat) : Rat × Rat := (c.1 + a * T.cos t, c.2 + b * T.sin t)
/-- The derivative there, by the angle in radians. -/
def along (T : Trig) (a b t : Rat) : Rat × Rat := (-a * T.sin t, b * T.cos t)

/-- A cubic curve with the given control points and end point. -/
def curveInstr (u v w : Rat × Rat) : List Want × String := ([.num 5 u.1, .num 5 u.2, .num 5 v.1, .num 5 v.2, .num 5 w.1, .num 5 w.2], "c")

/-- The `j`-th of the curves that go along the ellipse in steps of `d` degrees from `s` degrees: it ends on the ellipse, and its control points are those of the
cubic curve that has the position and the derivative of the ellipse at both ends. -/
def arcInstr (T : Trig) (c : Rat × Rat) (a b s d : Rat) (j : Nat) : List Want × String :=
  let t0 := s + j * d
  let t1 := s + (j + 1) * d
  let r := d * T.pi / 180 / 3
  curveInstr ((onEllipse T c a b t0).1 + r * (along T a b t0).1, (onEllipse T c a b t0).2 + r * (along T a b t0).2)
    ((onEllipse T c a b t1).1 - r * (along T a b t1).1, (onEllipse T c a b t1).2 - r * (along T a b t1).2) (onEllipse T c a b t1)

/-! ### Arcs -/

theorem wrote_arcSeg (T : Trig) (f : Fpdf) (hs : f.state = 2) (hk : f.k ≠ 0) (c : Rat × Rat) (a b s d : Rat) (path : Bool) (j : Nat) :
    Wrote f (Fpdf.arcSeg T s d (d * T.pi / 180 / 3) c.1 c.2 a b path (f, (onEllipse T c a b (s + j * d)).1, (onEllipse T c a b (s + j * d)).2, (along T a b (s + j * d)).1, (along T a b (s + j * d)).2) (j + 1)).1
      [arcInstr T c a b s d j] := by
  have et : ((j + 1 : Nat) : Rat) * d + s = s + (j + 1) * d := by push_cast; ring
  unfold Fpdf.arcSeg
  dsimp only
  rw [et]
  unfold arcInstr curveInstr onEllipse along
  dsimp only
  generalize T.cos (s + (j + 1) * d) = c1
  generalize T.sin (s + (j + 1) * d) = s1
  generalize T.cos (s + j * d) = c0
  generalize T.sin (s + j * d) = s0
  generalize d * T.pi / 180 / 3 = r
  have kx : ∀ v, px f (v / f.k) = v := fun v => by unfold px Fpdf.getConversionRatio; exact div_mul_cancel₀ v hk
  have ky : ∀ v, py f (f.p.h - v / f.k) = v := fun v => by
    unfold py Fpdf.getConversionRatio Fpdf.getPageSize
    dsimp only
    rw [sub_sub_cancel, div_mul_cancel₀ v hk]
  have h1 := wrote_curve f hs ((c.1 + a * c0 + -a * s0 * r) / f.k) (f.p.h - (c.2 + b * s0 + b * c0 * r) / f.k) ((c.1 + a * c1 - -a * s1 * r) / f.k)
    (f.p.h - (c.2 + b * s1 - b * c1 * r) / f.k) ((c.1 + a * c1) / f.k) (f.p.h - (c.2 + b * s1) / f.k)
  simp only [kx, ky] at h1
  rw [show c.1 + a * c0 + r * (-a * s0) = c.1 + a * c0 + -a * s0 * r by ring, show c.2 + b * s0 + r * (b * c0) = c.2 + b * s0 + b * c0 * r by ring,
    show c.1 + a * c1 - r * (-a * s1) = c.1 + a * c1 - -a * s1 * r by ring, show c.2 + b * s1 - r * (b * c1) = c.2 + b * s1 - b * c1 * r by ring]
  cases path
  · exact h1
  · exact Wrote.trans (b := []) h1 (Wrote.upd rfl rfl rfl rfl rfl)

theorem wrote_arcSegs (T : Trig) (f : Fpdf) (hs : f.state = 2) (hk : f.k ≠ 0) (c : Rat × Rat) (a b s d : Rat) (path : Bool) (n : Nat) :
    ∃ g, (List.range n).foldl (fun q j => Fpdf.arcSeg T s d (d * T.pi / 180 / 3) c.1 c.2 a b path q (j + 1)) (f, (onEllipse T c a b s).1, (onEllipse T c a b s).2, (along T a b s).1, (along T a b s).2) =
        (g, (onEllipse T c a b (s + n * d)).1, (onEllipse T c a b (s + n * d)).2, (along T a b (s + n * d)).1, (along T a b (s + n * d)).2) ∧
      Wrote f g ((List.range n).map (arcInstr T c a b s d)) ∧ (path = true → 0 < n → (g.p.x, g.p.y) = ((onEllipse T c a b (s + n * d)).1 / f.k, f.p.h - (onEllipse T c a b (s + n * d)).2 / f.k)) := by
  induction n with
  | zero => exact ⟨f, by simp, Wrote.refl f, fun _ h => absurd h (by simp)⟩
  | succ n ih =>
    obtain ⟨g, h1, h2, -⟩ := ih
    have h3 := wrote_arcSeg T g (h2.state.trans hs) (by rw [h2.k]; exact hk) c a b s d path n
    have et : ((n + 1 : Nat) : Rat) * d + s = s + ((n + 1 : Nat) : Rat) * d := by ring
    refine ⟨(Fpdf.arcSeg T s d (d * T.pi / 180 / 3) c.1 c.2 a b path (g, (onEllipse T c a b (s + n * d)).1, (onEllipse T c a b (s + n * d)).2, (along T a b (s + n * d)).1, (along T a b (s + n * d)).2) (n + 1)).1, ?_, ?_, ?_⟩
    · rw [List.range_succ, List.foldl_append, h1]
      rw [List.foldl_cons, List.foldl_nil]
      refine Prod.ext rfl ?_
      unfold Fpdf.arcSeg onEllipse along
      dsimp only
      rw [et]
    · rw [List.range_succ, List.map_append]
      exact h2.trans h3
    · intro hp _
      subst hp
      unfold Fpdf.arcSeg onEllipse
      dsimp only
      rw [et, if_pos rfl]
      show (_ / (Fpdf.curve g _ _ _ _ _ _).k, (Fpdf.curve g _ _ _ _ _ _).p.h - _ / (Fpdf.curve g _ _ _ _ _ _).k) = _
      have w := wrote_curve g (h2.state.trans hs) 
      rw [(w _ _ _ _ _ _).k, (w _ _ _ _ _ _).h, h2.k, h2.h]

/-- Number of curves into which an arc is divided. -/
def arcPieces (s e : Rat) : Nat := let n := (Fpdf.truncRat (e - s)).tdiv 60; if n < 2 then 2 else n.toNat

theorem arcPieces_two (s e : Rat) : 2 ≤ arcPieces s e := by
  unfold arcPieces
  dsimp only
  split <;> omega

theorem wrote_outQ (g : Fpdf) (h : g.state = 2) : Wrote g (g.outs "Q") [([], "Q")] := by
  refine Wrote.put h ?_
  have := frag_sprintf (fmt := "Q") (args := []) (is := [([], B "Q")]) rfl rfl
  rwa [B_sprintf "Q" (by decide)] at this

section
variable (E : Ext) (cb : Cb) (f : Fpdf) (hs : f.state = 2) (hk : f.k ≠ 0)
include hs

include hk

/-- **C71** `Arc`, `Ellipse` and `Circle` (which are arcs from 0 to 360 degrees): the path begins at the point of the ellipse at the first angle and follows the ellipse in equal steps to the second,
by curves that have the position and the direction of the ellipse at their ends; then it is painted once. -/
theorem C71_arc (x y rx ry s e : Rat) (style : Bytes) (op : String) (hst : Paints style op) : ∃ n d, 2 ≤ n ∧ s + (n : Nat) * d = e ∧
    Writes f (f.exec E cb (.arc x y rx ry 0 s e style false))
      ([([.num 2 (onEllipse E.T (px f x, py f y) (px f rx) (px f ry) s).1, .num 2 (onEllipse E.T (px f x, py f y) (px f rx) (px f ry) s).2], "m")] ++
        (List.range n).map (arcInstr E.T (px f x, py f y) (px f rx) (px f ry) s d) ++ [([], op)]) := by
  have h2 := arcPieces_two s e
  refine ⟨arcPieces s e, (e - s) / arcPieces s e, h2, ?_, ?_⟩
  · rw [mul_div_cancel₀ _ (by positivity)]; ring
  show Writes f (f.arc E.T x y rx ry 0 s e style false) _
  unfold Fpdf.arc
  simp only [ne_eq, not_true_eq_false, if_false, Bool.false_eq_true]
  have w1 := wrote_point f hs ((onEllipse E.T (px f x, py f y) (px f rx) (px f ry) s).1 / f.k) (f.p.h - (onEllipse E.T (px f x, py f y) (px f rx) (px f ry) s).2 / f.k)
  have kx : ∀ v, px f (v / f.k) = v := fun v => by unfold px Fpdf.getConversionRatio; exact div_mul_cancel₀ v hk
  have ky : ∀ v, py f (f.p.h - v / f.k) = v := fun v => by
    unfold py Fpdf.getConversionRatio Fpdf.getPageSize
    dsimp only
    rw [sub_sub_cancel, div_mul_cancel₀ v hk]
  rw [kx, ky] at w1
  obtain ⟨g, g1, g2, -⟩ := wrote_arcSegs E.T _ (w1.state.trans hs) (by rw [w1.k]; exact hk) (px f x, py f y) (px f rx) (px f ry) s ((e - s) / arcPieces s e) false (arcPieces s e)
  have w2 := w1.trans g2
  have w3 := w2.trans (wrote_paint g (w2.state.trans hs) style op hst).2
  have eg := congrArg Prod.fst g1
  dsimp only at eg
  rw [← eg] at w3
  exact Wrote.writes w3

/-- **C71** A rotated `Arc` or `Ellipse`: the same around the origin, in coordinates turned by the angle about the centre asked for; the coordinates are as before afterwards. -/
theorem C71_arc_rotated (x y rx ry rot s e : Rat) (hrot : rot ≠ 0) (style : Bytes) (op : String) (hst : Paints style op) : ∃ n d, 2 ≤ n ∧ s + (n : Nat) * d = e ∧
    Writes f (f.exec E cb (.arc x y rx ry rot s e style false))
      ([([], "q"), ([.num 5 (E.T.cos (-rot)), .num 5 (-1 * E.T.sin (-rot)), .num 5 (E.T.sin (-rot)), .num 5 (E.T.cos (-rot)), .num 5 (px f x), .num 5 (py f y)], "cm"),
          ([.num 2 (onEllipse E.T (0, 0) (px f rx) (px f ry) s).1, .num 2 (onEllipse E.T (0, 0) (px f rx) (px f ry) s).2], "m")] ++
        (List.range n).map (arcInstr E.T (0, 0) (px f rx) (px f ry) s d) ++ [([], op), ([], "Q")]) := by
  have h2 := arcPieces_two s e
  refine ⟨arcPieces s e, (e - s) / arcPieces s e, h2, ?_, ?_⟩
  · rw [mul_div_cancel₀ _ (by positivity)]; ring
  show Writes f (f.arc E.T x y rx ry rot s e style false) _
  unfold Fpdf.arc
  simp only [ne_eq, hrot, not_false_eq_true, if_true, if_false, Bool.false_eq_true]
  have w0 : Wrote f (f.outf "q %.5f %.5f %.5f %.5f %.5f %.5f cm" [.f (E.T.cos (-rot)), .f (-1 * E.T.sin (-rot)), .f (E.T.sin (-rot)), .f (E.T.cos (-rot)), .f (x * f.k), .f ((f.p.h - y) * f.k)])
    [([], "q"), ([.num 5 (E.T.cos (-rot)), .num 5 (-1 * E.T.sin (-rot)), .num 5 (E.T.sin (-rot)), .num 5 (E.T.cos (-rot)), .num 5 (px f x), .num 5 (py f y)], "cm")] := Wrote.put hs (by reads)
  generalize f.outf "q %.5f %.5f %.5f %.5f %.5f %.5f cm" _ = f1 at w0 ⊢
  have hs1 : f1.state = 2 := w0.state.trans hs
  have hk1 : f1.k ≠ 0 := by rw [w0.k]; exact hk
  have kx : ∀ v, px f1 (v / f1.k) = v := fun v => by unfold px Fpdf.getConversionRatio; exact div_mul_cancel₀ v hk1
  have ky : ∀ v, py f1 (f1.p.h - v / f1.k) = v := fun v => by
    unfold py Fpdf.getConversionRatio Fpdf.getPageSize
    dsimp only
    rw [sub_sub_cancel, div_mul_cancel₀ v hk1]
  have w1 := wrote_point f1 hs1 ((onEllipse E.T (0, 0) (px f rx) (px f ry) s).1 / f1.k) (f1.p.h - (onEllipse E.T (0, 0) (px f rx) (px f ry) s).2 / f1.k)
  rw [kx, ky] at w1
  obtain ⟨g, g1, g2, -⟩ := wrote_arcSegs E.T _ (w1.state.trans hs1) (by rw [w1.k]; exact hk1) (0, 0) (px f rx) (px f ry) s ((e - s) / arcPieces s e) false (arcPieces s e)
  have w2 := (w0.trans w1).trans g2
  have w3 := w2.trans (wrote_paint g (w2.state.trans hs) style op hst).2
  have w4 := w3.trans (wrote_outQ _ (w3.state.trans hs))
  have eg := congrArg Prod.fst g1
  dsimp only at eg
  rw [← eg, List.append_assoc _ [_] [_]] at w4
  exact Wrote.writes w4

/-- **C71** `ArcTo` continues the path: by a line to the first point of the arc, unless the cursor is there already, and along the arc; the cursor is then at its end. -/
theorem C71_arcTo (x y rx ry s e : Rat) : ∃ n d, 2 ≤ n ∧ s + (n : Nat) * d = e ∧
    Writes f (f.exec E cb (.arc x y rx ry 0 s e [] true))
      ((if px f f.getXY.1 = (onEllipse E.T (px f x, py f y) (px f rx) (px f ry) s).1 ∧ py f f.getXY.2 = (onEllipse E.T (px f x, py f y) (px f rx) (px f ry) s).2 then []
        else [([.num 2 (onEllipse E.T (px f x, py f y) (px f rx) (px f ry) s).1, .num 2 (onEllipse E.T (px f x, py f y) (px f rx) (px f ry) s).2], "l")]) ++
        (List.range n).map (arcInstr E.T (px f x, py f y) (px f rx) (px f ry) s d)) ∧
    (px f (f.exec E cb (.arc x y rx ry 0 s e [] true)).getXY.1, py f (f.exec E cb (.arc x y rx ry 0 s e [] true)).getXY.2) = onEllipse E.T (px f x, py f y) (px f rx) (px f ry) e := by
  have h2 := arcPieces_two s e
  have hend : s + (arcPieces s e : Nat) * ((e - s) / arcPieces s e) = e := by rw [mul_div_cancel₀ _ (by positivity)]; ring
  refine ⟨arcPieces s e, (e - s) / arcPieces s e, h2, hend, ?_⟩
  show Writes f (f.arc E.T x y rx ry 0 s e [] true) _ ∧ (px f (f.arc E.T x y rx ry 0 s e [] true).getXY.1, py f (f.arc E.T x y rx ry 0 s e [] true).getXY.2) = _
  unfold Fpdf.arc
  simp only [ne_eq, not_true_eq_false, if_false, if_true]
  have kx : ∀ v, px f (v / f.k) = v := fun v => by unfold px Fpdf.getConversionRatio; exact div_mul_cancel₀ v hk
  have ky : ∀ v, py f (f.p.h - v / f.k) = v := fun v => by
    unfold py Fpdf.getConversionRatio Fpdf.getPageSize
    dsimp only
    rw [sub_sub_cancel, div_mul_cancel₀ v hk]
  have w1 : Wrote f (if ¬f.p.x = (onEllipse E.T (px f x, py f y) (px f rx) (px f ry) s).1 / f.k ∨ ¬f.p.y = f.p.h - (onEllipse E.T (px f x, py f y) (px f rx) (px f ry) s).2 / f.k then
        f.lineTo ((onEllipse E.T (px f x, py f y) (px f rx) (px f ry) s).1 / f.k) (f.p.h - (onEllipse E.T (px f x, py f y) (px f rx) (px f ry) s).2 / f.k) else f)
      (if px f f.getXY.1 = (onEllipse E.T (px f x, py f y) (px f rx) (px f ry) s).1 ∧ py f f.getXY.2 = (onEllipse E.T (px f x, py f y) (px f rx) (px f ry) s).2 then []
        else [([.num 2 (onEllipse E.T (px f x, py f y) (px f rx) (px f ry) s).1, .num 2 (onEllipse E.T (px f x, py f y) (px f rx) (px f ry) s).2], "l")]) := by
    generalize onEllipse E.T (px f x, py f y) (px f rx) (px f ry) s = P
    have hx : px f f.getXY.1 = P.1 ↔ f.p.x = P.1 / f.k := by
      rw [eq_div_iff hk]; rfl
    have hy : py f f.getXY.2 = P.2 ↔ f.p.y = f.p.h - P.2 / f.k := by
      show (f.p.h - f.p.y) * f.k = P.2 ↔ _
      rw [← eq_div_iff hk]
      constructor <;> intro h <;> linarith
    by_cases hc : f.p.x = P.1 / f.k ∧ f.p.y = f.p.h - P.2 / f.k
    · rw [if_neg (by simpa using hc), if_pos ⟨hx.mpr hc.1, hy.mpr hc.2⟩]
      exact Wrote.refl f
    · rw [if_pos (by tauto), if_neg (by rw [hx, hy]; exact hc)]
      have h : Wrote f (f.outf "%.2f %.2f l" [.f (P.1 / f.k * f.k), .f ((f.p.h - (f.p.h - P.2 / f.k)) * f.k)]) [([.num 2 (px f (P.1 / f.k)), .num 2 (py f (f.p.h - P.2 / f.k))], "l")] := Wrote.put hs (by reads)
      rw [kx, ky] at h
      exact Wrote.trans (b := []) h (Wrote.upd rfl rfl rfl rfl rfl)
  obtain ⟨g, g1, g2, g3⟩ := wrote_arcSegs E.T _ (w1.state.trans hs) (by rw [w1.k]; exact hk) (px f x, py f y) (px f rx) (px f ry) s ((e - s) / arcPieces s e) true (arcPieces s e)
  have w2 := w1.trans g2
  have g3 := g3 rfl (by omega)
  have eg := congrArg Prod.fst g1
  dsimp only at eg
  rw [hend, w1.k, w1.h] at g3
  rw [← eg] at w2 g3
  refine ⟨Wrote.writes w2, ?_⟩
  refine Prod.ext ?_ ?_
  · exact (congrArg (px f) (congrArg Prod.fst g3)).trans (kx _)
  · exact (congrArg (py f) (congrArg Prod.snd g3)).trans (ky _)

end

/-! ### Rounded rectangles and clipping regions -/

/-- A quarter of an ellipse with centre `c`, from the direction `u` to the direction `v`, in the document's units: the usual approximation by one cubic curve. -/
def quarter (T : Trig) (f : Fpdf) (c r u v : Rat × Rat) : List Want × String :=
  let m := 4 / 3 * (T.sqrt2 - 1)
  curveInstr (pt f (c.1 + r.1 * (u.1 + m * v.1)) (c.2 + r.2 * (u.2 + m * v.2))) (pt f (c.1 + r.1 * (m * u.1 + v.1)) (c.2 + r.2 * (m * u.2 + v.2))) (pt f (c.1 + r.1 * v.1) (c.2 + r.2 * v.2))

/-- To a point. -/
def moveInstr (f : Fpdf) (x y : Rat) : List Want × String := ([.num 5 (px f x), .num 5 (py f y)], "m")
@[inherit_doc moveInstr] def goInstr (f : Fpdf) (x y : Rat) : List Want × String := ([.num 5 (px f x), .num 5 (py f y)], "l")

/-- The outline of a rectangle with rounded corners (radii from the upper left clockwise; a radius of 0 stands for a plain corner), clockwise from the left end of the upper edge. -/
def roundedInstrs (T : Trig) (f : Fpdf) (x y w h rTL rTR rBR rBL : Rat) : List (List Want × String) :=
  [moveInstr f (x + rTL) y, goInstr f (x + w - rTR) y] ++ (if rTR = 0 then [] else [quarter T f (x + w - rTR, y + rTR) (rTR, rTR) (0, -1) (1, 0)]) ++
  [goInstr f (x + w) (y + h - rBR)] ++ (if rBR = 0 then [] else [quarter T f (x + w - rBR, y + h - rBR) (rBR, rBR) (1, 0) (0, 1)]) ++
  [goInstr f (x + rBL) (y + h)] ++ (if rBL = 0 then [] else [quarter T f (x + rBL, y + h - rBL) (rBL, rBL) (0, 1) (-1, 0)]) ++
  [goInstr f x (y + rTL)] ++ (if rTL = 0 then [] else [quarter T f (x + rTL, y + rTL) (rTL, rTL) (-1, 0) (0, -1)])

theorem wrote_clipArc (f g : Fpdf) (hs : g.state = 2) (hx : ∀ v, px g v = px f v) (hy : ∀ v, py g v = py f v) (r a b c d x y : Rat) (i : List Want × String) (h : i = curveInstr (pt f a b) (pt f c d) (pt f x y)) :
    Wrote g (if r ≠ 0 then g.clipArc a b c d x y else g) (if r = 0 then [] else [i]) := by
  by_cases hr : r = 0
  · rw [if_neg (by simpa using hr), if_pos hr]; exact Wrote.refl g
  · rw [if_pos hr, if_neg hr, h]
    have : Wrote g (g.clipArc a b c d x y) [curveInstr (pt g a b) (pt g c d) (pt g x y)] := Wrote.put hs (by unfold curveInstr pt; reads)
    unfold pt at this ⊢
    simp only [hx, hy] at this
    exact this

theorem wrote_go (f g : Fpdf) (hs : g.state = 2) (x y : Rat) : Wrote g (g.outf "%.5f %.5f l" [.f (x * f.k), .f ((f.p.h - y) * f.k)]) [goInstr f x y] :=
  Wrote.put hs (by unfold goInstr; reads)

theorem wrote_rounded (T : Trig) (f : Fpdf) (hs : f.state = 2) (x y w h rTL rTR rBR rBL : Rat) :
    Wrote f (f.roundedRectPath T x y w h rTL rTR rBR rBL) (([], "q") :: roundedInstrs T f x y w h rTL rTR rBR rBL) := by
  unfold Fpdf.roundedRectPath
  dsimp only
  have w0 : Wrote f (f.outf "q %.5f %.5f m" [.f ((x + rTL) * f.k), .f ((f.p.h - y) * f.k)]) [([], "q"), moveInstr f (x + rTL) y] := Wrote.put hs (by unfold moveInstr; reads)
  generalize f.outf "q %.5f %.5f m" _ = g0 at w0 ⊢
  have w1 := w0.trans (wrote_go f g0 (w0.state.trans hs) (x + w - rTR) y)
  generalize g0.outf "%.5f %.5f l" _ = g1 at w1 ⊢
  have w2 := w1.trans (wrote_clipArc f g1 (w1.state.trans hs) w1.px w1.py rTR _ _ _ _ _ _ (quarter T f (x + w - rTR, y + rTR) (rTR, rTR) (0, -1) (1, 0))
    (show _ = curveInstr (pt f (x + w - rTR + rTR * ((4 / 3) * (T.sqrt2 - 1))) (y + rTR - rTR)) (pt f (x + w - rTR + rTR) (y + rTR - rTR * ((4 / 3) * (T.sqrt2 - 1)))) (pt f (x + w - rTR + rTR) (y + rTR)) by
      unfold quarter; dsimp only; congr 2 <;> ring))
  generalize (if rTR ≠ 0 then g1.clipArc _ _ _ _ _ _ else g1) = g2 at w2 ⊢
  have w3 := w2.trans (wrote_go f g2 (w2.state.trans hs) (x + w) (y + h - rBR))
  generalize g2.outf "%.5f %.5f l" _ = g3 at w3 ⊢
  have w4 := w3.trans (wrote_clipArc f g3 (w3.state.trans hs) w3.px w3.py rBR _ _ _ _ _ _ (quarter T f (x + w - rBR, y + h - rBR) (rBR, rBR) (1, 0) (0, 1))
    (show _ = curveInstr (pt f (x + w - rBR + rBR) (y + h - rBR + rBR * ((4 / 3) * (T.sqrt2 - 1)))) (pt f (x + w - rBR + rBR * ((4 / 3) * (T.sqrt2 - 1))) (y + h - rBR + rBR)) (pt f (x + w - rBR) (y + h - rBR + rBR)) by
      unfold quarter; dsimp only; congr 2 <;> ring))
  generalize (if rBR ≠ 0 then g3.clipArc _ _ _ _ _ _ else g3) = g4 at w4 ⊢
  have w5 := w4.trans (wrote_go f g4 (w4.state.trans hs) (x + rBL) (y + h))
  generalize g4.outf "%.5f %.5f l" _ = g5 at w5 ⊢
  have w6 := w5.trans (wrote_clipArc f g5 (w5.state.trans hs) w5.px w5.py rBL _ _ _ _ _ _ (quarter T f (x + rBL, y + h - rBL) (rBL, rBL) (0, 1) (-1, 0))
    (show _ = curveInstr (pt f (x + rBL - rBL * ((4 / 3) * (T.sqrt2 - 1))) (y + h - rBL + rBL)) (pt f (x + rBL - rBL) (y + h - rBL + rBL * ((4 / 3) * (T.sqrt2 - 1)))) (pt f (x + rBL - rBL) (y + h - rBL)) by
      unfold quarter; dsimp only; congr 2 <;> ring))
  generalize (if rBL ≠ 0 then g5.clipArc _ _ _ _ _ _ else g5) = g6 at w6 ⊢
  have w7 := w6.trans (wrote_go f g6 (w6.state.trans hs) x (y + rTL))
  generalize g6.outf "%.5f %.5f l" _ = g7 at w7 ⊢
  have w8 := w7.trans (wrote_clipArc f g7 (w7.state.trans hs) w7.px w7.py rTL _ _ _ _ _ _ (quarter T f (x + rTL, y + rTL) (rTL, rTL) (-1, 0) (0, -1))
    (show _ = curveInstr (pt f (x + rTL - rTL) (y + rTL - rTL * ((4 / 3) * (T.sqrt2 - 1)))) (pt f (x + rTL - rTL * ((4 / 3) * (T.sqrt2 - 1))) (y + rTL - rTL)) (pt f (x + rTL) (y + rTL - rTL)) by
      unfold quarter; dsimp only; congr 2 <;> ring))
  exact w8

/-- **C71** `RoundedRect`: the outline asked for, painted once. (The graphics state is saved before and, in this version of the code, not restored: see C11.) -/
theorem C71_roundedRect (E : Ext) (cb : Cb) (f : Fpdf) (hs : f.state = 2) (x y w h rTL rTR rBR rBL : Rat) (style : Bytes) (op : String) (hst : Paints style op) :
    Writes f (f.exec E cb (.roundedRect x y w h rTL rTR rBR rBL style)) (([], "q") :: roundedInstrs E.T f x y w h rTL rTR rBR rBL ++ [([], op)]) := by
  have h1 := wrote_rounded E.T f hs x y w h rTL rTR rBR rBL
  exact Wrote.writes (h1.trans (wrote_paint _ (h1.state.trans hs) style op hst).2)

/-- What ends a clipping path: it is made the clipping region, and drawn or not. -/
def clipInstrs (outline : Bool) : List (List Want × String) := [([], "W"), ([], if outline then "S" else "n")]

section
variable (E : Ext) (cb : Cb) (f : Fpdf) (hs : f.state = 2)
include hs

omit hs in
theorem clipFrag (outline : Bool) : Frag (sprintf "h W %s" [.s (Fpdf.strIf outline "S" "n")]) (written (([], "h") :: clipInstrs outline)) ∧
    Frag (sprintf " W %s" [.s (Fpdf.strIf outline "S" "n")]) (written (clipInstrs outline)) := by
  cases outline <;>
  · unfold clipInstrs
    simp only [Bool.false_eq_true, if_false, if_true, written, List.map_cons, List.map_nil]
    exact ⟨frag_sprintf rfl rfl, frag_sprintf rfl rfl⟩

/-- **C71** `ClipRoundedRect`: saves the graphics state and clips to the outline. -/
theorem C71_clipRoundedRect (x y w h rTL rTR rBR rBL : Rat) (outline : Bool) : Writes f (f.exec E cb (.clipRoundedRect x y w h rTL rTR rBR rBL outline))
    (([], "q") :: roundedInstrs E.T f x y w h rTL rTR rBR rBL ++ clipInstrs outline) := by
  have h0 : Wrote f { f with clipNest := f.clipNest + 1 } [] := Wrote.upd rfl rfl rfl rfl rfl
  have h1 := h0.trans (wrote_rounded E.T { f with clipNest := f.clipNest + 1 } hs x y w h rTL rTR rBR rBL)
  exact Wrote.writes (h1.trans (Wrote.put (h1.state.trans hs) (clipFrag outline).2))

/-- **C71** `ClipEllipse`: saves the graphics state and clips to the ellipse, made of four quarters. -/
theorem C71_clipEllipse (x y rx ry : Rat) (outline : Bool) : Writes f (f.exec E cb (.clipEllipse x y rx ry outline))
    ([([], "q"), moveInstr f (x + rx) y, quarter E.T f (x, y) (rx, ry) (1, 0) (0, -1), quarter E.T f (x, y) (rx, ry) (0, -1) (-1, 0),
      quarter E.T f (x, y) (rx, ry) (-1, 0) (0, 1), quarter E.T f (x, y) (rx, ry) (0, 1) (1, 0)] ++ clipInstrs outline) := by
  show Writes f (f.clipEllipse E.T x y rx ry outline) _
  unfold Fpdf.clipEllipse
  dsimp only
  have h0 : Wrote f { f with clipNest := f.clipNest + 1 } [] := Wrote.upd rfl rfl rfl rfl rfl
  have q1 : quarter E.T f (x, y) (rx, ry) (1, 0) (0, -1) =
      curveInstr (pt f (x + rx) (y - (4 / 3) * ry * (E.T.sqrt2 - 1))) (pt f (x + (4 / 3) * rx * (E.T.sqrt2 - 1)) (y - ry)) (pt f x (y - ry)) := by
    unfold quarter; dsimp only; congr 2 <;> ring
  have q2 : quarter E.T f (x, y) (rx, ry) (0, -1) (-1, 0) =
      curveInstr (pt f (x - (4 / 3) * rx * (E.T.sqrt2 - 1)) (y - ry)) (pt f (x - rx) (y - (4 / 3) * ry * (E.T.sqrt2 - 1))) (pt f (x - rx) y) := by
    unfold quarter; dsimp only; congr 2 <;> ring
  have q3 : quarter E.T f (x, y) (rx, ry) (-1, 0) (0, 1) =
      curveInstr (pt f (x - rx) (y + (4 / 3) * ry * (E.T.sqrt2 - 1))) (pt f (x - (4 / 3) * rx * (E.T.sqrt2 - 1)) (y + ry)) (pt f x (y + ry)) := by
    unfold quarter; dsimp only; congr 2 <;> ring
  have q4 : quarter E.T f (x, y) (rx, ry) (0, 1) (1, 0) =
      curveInstr (pt f (x + (4 / 3) * rx * (E.T.sqrt2 - 1)) (y + ry)) (pt f (x + rx) (y + (4 / 3) * ry * (E.T.sqrt2 - 1))) (pt f (x + rx) y) := by
    unfold quarter; dsimp only; congr 2 <;> ring
  rw [q1, q2, q3, q4]
  generalize (4 / 3 : Rat) * rx * (E.T.sqrt2 - 1) = lx
  generalize (4 / 3 : Rat) * ry * (E.T.sqrt2 - 1) = ly
  have w1 : Wrote { f with clipNest := f.clipNest + 1 } (({ f with clipNest := f.clipNest + 1 } : Fpdf).outf "q %.5f %.5f m %.5f %.5f %.5f %.5f %.5f %.5f c" [.f ((x + rx) * f.k), .f ((f.p.h - y) * f.k),
      .f ((x + rx) * f.k), .f ((f.p.h - (y - ly)) * f.k), .f ((x + lx) * f.k), .f ((f.p.h - (y - ry)) * f.k), .f (x * f.k), .f ((f.p.h - (y - ry)) * f.k)])
      [([], "q"), moveInstr f (x + rx) y, curveInstr (pt f (x + rx) (y - ly)) (pt f (x + lx) (y - ry)) (pt f x (y - ry))] :=
    Wrote.put (f := { f with clipNest := f.clipNest + 1 }) hs (by unfold moveInstr curveInstr pt; reads)
  have w1 := h0.trans w1
  generalize ({ f with clipNest := f.clipNest + 1 } : Fpdf).outf "q %.5f %.5f m %.5f %.5f %.5f %.5f %.5f %.5f c" _ = g1 at w1 ⊢
  have c : ∀ (g : Fpdf), g.state = 2 → ∀ a b c d u v : Rat, Wrote g (g.outf "%.5f %.5f %.5f %.5f %.5f %.5f c" [.f (a * f.k), .f ((f.p.h - b) * f.k), .f (c * f.k), .f ((f.p.h - d) * f.k), .f (u * f.k), .f ((f.p.h - v) * f.k)])
      [curveInstr (pt f a b) (pt f c d) (pt f u v)] := fun g hg a b c d u v => Wrote.put hg (by unfold curveInstr pt; reads)
  have w2 := w1.trans (c g1 (w1.state.trans hs) (x - lx) (y - ry) (x - rx) (y - ly) (x - rx) y)
  generalize g1.outf "%.5f %.5f %.5f %.5f %.5f %.5f c" _ = g2 at w2 ⊢
  have w3 := w2.trans (c g2 (w2.state.trans hs) (x - rx) (y + ly) (x - lx) (y + ry) x (y + ry))
  generalize g2.outf "%.5f %.5f %.5f %.5f %.5f %.5f c" _ = g3 at w3 ⊢
  have w4 : Wrote g3 (g3.outf "%.5f %.5f %.5f %.5f %.5f %.5f c W %s" [.f ((x + lx) * f.k), .f ((f.p.h - (y + ry)) * f.k), .f ((x + rx) * f.k), .f ((f.p.h - (y + ly)) * f.k), .f ((x + rx) * f.k), .f ((f.p.h - y) * f.k),
      .s (Fpdf.strIf outline "S" "n")]) (curveInstr (pt f (x + lx) (y + ry)) (pt f (x + rx) (y + ly)) (pt f (x + rx) y) :: clipInstrs outline) := by
    cases outline <;>
    · unfold clipInstrs
      simp only [Bool.false_eq_true, if_false, if_true]
      exact Wrote.put (w3.state.trans hs) (by unfold curveInstr pt; reads)
  exact Wrote.writes (w3.trans w4)

omit hs in
theorem clipPts_lines (op : String) (hop : op = "m" ∨ op = "l") (p : Rat × Rat) : Lines (sprintf "%.5f %.5f %s " [.f (p.1 * f.k), .f ((f.p.h - p.2) * f.k), .s (B op)]) (written [([.num 5 (px f p.1), .num 5 (py f p.2)], op)]) := by
  rcases hop with rfl | rfl
  · have e : ∀ a b : Rat, sprintf "%.5f %.5f %s " [.f a, .f b, .s (B "m")] = (fmtF 5 a ++ 32 :: (fmtF 5 b ++ [32, 109])) ++ [32] := fun a b => by
      show fmtF 5 a ++ 32 :: (fmtF 5 b ++ [32, 109, 32]) = _
      simp
    rw [e]
    refine Frag.lines ?_
    rw [← e]
    reads
  · have e : ∀ a b : Rat, sprintf "%.5f %.5f %s " [.f a, .f b, .s (B "l")] = (fmtF 5 a ++ 32 :: (fmtF 5 b ++ [32, 108])) ++ [32] := fun a b => by
      show fmtF 5 a ++ 32 :: (fmtF 5 b ++ [32, 108, 32]) = _
      simp
    rw [e]
    refine Frag.lines ?_
    rw [← e]
    reads

omit hs in
theorem clipPolyPts_lines (pts : List (Rat × Rat)) : Lines (f.clipPolyPts "l" pts) (written (pts.map (lineInstr f))) := by
  induction pts with
  | nil => exact Lines.nil
  | cons p r ih =>
    rw [Fpdf.clipPolyPts]
    exact (clipPts_lines f "l" (.inr rfl) p).append ih

/-- **C71** `ClipPolygon`: saves the graphics state and clips to the closed polygon through the points, in order. -/
theorem C71_clipPolygon (p0 : Rat × Rat) (rest : List (Rat × Rat)) (outline : Bool) : Writes f (f.exec E cb (.clipPolygon (p0 :: rest) outline))
    ([([], "q"), moveInstr f p0.1 p0.2] ++ rest.map (lineInstr f) ++ [([], "h")] ++ clipInstrs outline) := by
  have h0 : Wrote f { f with clipNest := f.clipNest + 1 } [] := Wrote.upd rfl rfl rfl rfl rfl
  refine Wrote.writes (h0.trans (Wrote.put (f := { f with clipNest := f.clipNest + 1 }) hs ?_))
  have hq : Frag (B "q") [([], B "q")] := by
    have := frag_sprintf (fmt := "q") (args := []) (is := [([], B "q")]) rfl rfl
    rwa [B_sprintf "q" (by decide)] at this
  have hq : Lines (B "q ") [([], B "q")] := hq 32 (by decide)
  have h1 := (((hq.append (clipPts_lines f "m" (.inl rfl) p0)).append (clipPolyPts_lines f rest)).frag (clipFrag outline).1)
  have e : ([([], B "q")] ++ written [([.num 5 (px f p0.1), .num 5 (py f p0.2)], "m")] ++ written (rest.map (lineInstr f)) ++ written (([], "h") :: clipInstrs outline)) =
      written ([([], "q"), moveInstr f p0.1 p0.2] ++ rest.map (lineInstr f) ++ [([], "h")] ++ clipInstrs outline) := by
    simp [written, moveInstr]
  rw [e, List.append_assoc (B "q ")] at h1
  have e2 : ∀ l, ({ f with clipNest := f.clipNest + 1 } : Fpdf).clipPolyPts "l" l = f.clipPolyPts "l" l := by
    intro l
    induction l with
    | nil => rfl
    | cons p r ih => rw [Fpdf.clipPolyPts, ih]; rfl
  show Frag (B "q " ++ (sprintf "%.5f %.5f %s " [.f (p0.1 * f.k), .f ((f.p.h - p0.2) * f.k), .s (B "m")] ++ ({ f with clipNest := f.clipNest + 1 } : Fpdf).clipPolyPts "l" rest) ++ _) _
  rw [e2]
  exact h1

/-- **C71** `ClipText`: saves the graphics state and adds the text, at the point asked for, to the clipping region (text rendering modes 5 and 7: ISO 32000-1, 9.3.6). -/
theorem C71_clipText (x y : Rat) (txt : Bytes) (outline : Bool) : Writes f (f.exec E cb (.clipText x y txt outline))
    [([], "q"), ([], "BT"), ([.num 5 (px f x), .num 5 (py f y)], "Td"), ([.num 0 (if outline then 5 else 7)], "Tr"), ([.str txt], "Tj"), ([], "ET")] := by
  have h0 : Wrote f { f with clipNest := f.clipNest + 1 } [] := Wrote.upd rfl rfl rfl rfl rfl
  refine Wrote.writes (h0.trans (Wrote.put (f := { f with clipNest := f.clipNest + 1 }) hs ?_))
  have h := fun z => sprintf_frag "q BT %.5f %.5f Td %d Tr (%s) Tj ET" [.f (x * f.k), .f ((f.p.h - y) * f.k), .d z, .lit txt] (is := ([], B "q") :: [([], B "BT"),
    ([.word (fmtF 5 (x * f.k)), .word (fmtF 5 ((f.p.h - y) * f.k))], B "Td"), ([.word (intDec z)], B "Tr"), ([.str txt], B "Tj"), ([], B "ET")]) rfl (by
      intro a ha; simp only [List.mem_cons, List.not_mem_nil, or_false] at ha; rcases ha with rfl | rfl | rfl | rfl <;> trivial)
  have e5 : fmtF 0 5 = intDec 5 := by decide +kernel
  have e7 : fmtF 0 7 = intDec 7 := by decide +kernel
  cases outline
  · simp only [Bool.false_eq_true, if_false, written, List.map_cons, List.map_nil, Want.tok, e7]
    exact h 7
  · simp only [if_true, written, List.map_cons, List.map_nil, Want.tok, e5]
    exact h 5

/-- The curves of `Beziergon`: two control points and an end point each. -/
def bezierInstrs (f : Fpdf) : List (Rat × Rat) → List (List Want × String)
  | a :: b :: c :: r => curveInstr (pt f a.1 a.2) (pt f b.1 b.2) (pt f c.1 c.2) :: bezierInstrs f r
  | _ => []

omit hs in
theorem bezierInstrs_congr {f g : Fpdf} {ws} (h : Wrote f g ws) (l : List (Rat × Rat)) : bezierInstrs g l = bezierInstrs f l := by
  fun_induction bezierInstrs f l with
  | case1 a' b' c' r' ih' =>
    rw [bezierInstrs, ih']
    unfold pt
    simp only [h.px, h.py]
  | case2 l hl => rw [bezierInstrs]; exact hl

theorem wrote_bezier (pts : List (Rat × Rat)) : Wrote f (f.beziergonLoop pts) (bezierInstrs f pts) := by
  fun_induction Fpdf.beziergonLoop f pts with
  | case1 f a b c r ih =>
    have h1 := wrote_curve f hs a.1 a.2 b.1 b.2 c.1 c.2
    have h2 := ih (h1.state.trans hs)
    rw [bezierInstrs_congr h1] at h2
    rw [bezierInstrs]
    exact h1.trans h2
  | case2 =>
    rw [bezierInstrs]
    · exact Wrote.refl _
    · assumption

/-- **C71** `Beziergon`: from the first point along the curves given by the others, three by three, painted once. -/
theorem C71_beziergon (p0 : Rat × Rat) (rest : List (Rat × Rat)) (hl : 3 ≤ rest.length) (style : Bytes) (op : String) (hst : Paints style op) :
    Writes f (f.exec E cb (.beziergon (p0 :: rest) style)) ([([.num 2 (px f p0.1), .num 2 (py f p0.2)], "m")] ++ bezierInstrs f rest ++ [([], op)]) := by
  show Writes f (f.beziergon (p0 :: rest) style) _
  unfold Fpdf.beziergon
  dsimp only
  rw [if_neg (by simp only [List.length_cons]; omega)]
  have h1 := wrote_point f hs p0.1 p0.2
  have h2 := h1.trans (wrote_bezier _ (h1.state.trans hs) rest)
  rw [bezierInstrs_congr h1] at h2
  exact Wrote.writes (h2.trans (wrote_paint _ (h2.state.trans hs) style op hst).1)

end

/-- A page to draw on, in points. -/
def shapePage : Fpdf := (Fpdf.new [] (B "pt") [] ⟨300, 400⟩).exec {} {} .addPage

/-- The hypotheses of the theorems above are met by a new page; a circle begins at three o'clock (150 points from the left, as the trigonometry of this example has cos 0 = 1 and sin 0 = 0). -/
example : shapePage.state = 2 ∧ shapePage.k ≠ 0 ∧ shapePage.err = none ∧ Paints (B "FD") "B" ∧
    (shapePage.exec {} {} (.arc 100 150 50 50 0 0 360 (B "FD") false)).pages ≠ shapePage.pages ∧
    onEllipse ({} : Ext).T (px shapePage 100, py shapePage 150) (px shapePage 50) (px shapePage 50) 0 = (150, 250) ∧
    Writes shapePage (shapePage.exec {} {} (.clipPolygon [(10, 10), (20, 10), (10, 30)] true))
      [([], "q"), ([.num 5 (px shapePage 10), .num 5 (py shapePage 10)], "m"), ([.num 5 (px shapePage 20), .num 5 (py shapePage 10)], "l"), ([.num 5 (px shapePage 10), .num 5 (py shapePage 30)], "l"),
        ([], "h"), ([], "W"), ([], "S")] := by
  have hs : shapePage.state = 2 := by decide +kernel
  exact ⟨hs, by decide +kernel, by decide +kernel, ⟨"FD", by decide, by decide⟩, by decide +kernel, by decide +kernel, C71_clipPolygon {} {} shapePage hs (10, 10) [(20, 10), (10, 30)] true⟩

/-- An arc of a closed path, with a rotation: `ArcTo` with a rotation saves the graphics state in the middle of a path, which PDF does not allow, and compares the cursor with coordinates of another system. -/
theorem C71_arcTo_rotated_false : ∃ line, ((shapePage.exec {} {} (.moveTo 100 150)).exec {} {} (.arc 100 150 50 50 30 0 90 [] true)).pages =
    modifyAt 1 (· ++ (line ++ B "Q\n")) (shapePage.exec {} {} (.moveTo 100 150)).pages ∧ (instrs line).map (·.2) = [B "q", B "cm", B "l", B "c", B "c"] := by
  refine ⟨(((shapePage.exec {} {} (.moveTo 100 150)).exec {} {} (.arc 100 150 50 50 30 0 90 [] true)).pages.getD 1 []).drop ((shapePage.exec {} {} (.moveTo 100 150)).pages.getD 1 []).length |>.dropLast.dropLast, by decide +kernel, by decide +kernel⟩

end Verif.Props
