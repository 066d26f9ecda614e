import Verif.Proof.Grid
import Verif.Props.Numbers
/-
C39: scaling, tick marks, grid lines and plots.
-/
namespace Verif.Props
open Verif Verif.Model Verif.Spec Verif.Proof

/-! ### Scaling -/

theorem linear_eq {x1 y1 x2 y2 : Rat} (h : x2 ≠ x1) (v : Rat) : (linear x1 y1 x2 y2).1 * v + (linear x1 y1 x2 y2).2 = y1 + (y2 - y1) * ((v - x1) / (x2 - x1)) := by
  unfold linear
  rw [if_pos h]
  have : x2 - x1 ≠ 0 := sub_ne_zero.mpr h
  dsimp only
  field_simp
  ring

/-- Position of `v` in the range from `lo` to `hi`: 0 at `lo`, 1 at `hi`, proportional in between and outside. -/
def share (lo hi v : Rat) : Rat := (v - lo) / (hi - lo)

theorem tick_linear {l : List Rat} {lo d a b : Rat} {n : Nat} (hl : l = ticksFrom lo d n) (hd : d ≠ 0) (hn : n ≠ 0) (v : Rat) :
    (linearTickmark l a b).1 * v + (linearTickmark l a b).2 = a + (b - a) * share lo (lo + n * d) v := by
  have hne : lo + n * d ≠ lo := by
    intro h
    have : (n : Rat) * d = 0 := by linarith
    rcases mul_eq_zero.mp this with h' | h'
    · exact hn (by exact_mod_cast h')
    · exact hd h'
  unfold linearTickmark
  rw [hl, ticksFrom_head, ticksFrom_last]
  exact linear_eq hne v

/-- **C39** `TickmarksContainX`/`Y`: for every range the tick marks are equally spaced, at round distances (1, 2 or 5 times a power of ten) and at multiples of that distance; the first is
at or below `min`, the second above it, the last at or above `max`, the one before below it, so `[min, max]` is covered without waste; there are from 3 to 6 divisions. `X` maps the first
to the left and the last to the right edge, `Y` the first to the lower and the last to the upper edge, and values in between in proportion. -/
theorem C39_contain (g : Grid) (min max : Rat) (h : min < max) : ∃ (m : Int) (n : Nat) (d : Rat), RoundNum d ∧ 0 < d ∧ 3 ≤ n ∧ n ≤ 6 ∧
    m * d ≤ min ∧ min < m * d + d ∧ m * d + n * d - d < max ∧ max ≤ m * d + n * d ∧
    (g.tickmarksContainX min max).xTicks = ticksFrom (m * d) d n ∧ (g.tickmarksContainY min max).yTicks = ticksFrom (m * d) d n ∧
    (∀ v, (g.tickmarksContainX min max).X v = g.x + g.w * share (m * d) (m * d + n * d) v) ∧
    (∀ v, (g.tickmarksContainY min max).Y v = g.y + g.h - g.h * share (m * d) (m * d + n * d) v) := by
  obtain ⟨m, n, d, h1, -, hr, hd, h2, h3, h4, h5, h6, h7⟩ := tickmarks_eq min max h
  refine ⟨m, n, d, hr, hd, h6, h7, h2, h3, by linarith, h4, h1, h1, fun v => ?_, fun v => ?_⟩
  · have := tick_linear (a := g.x) (b := g.x + g.w) h1 (ne_of_gt hd) (by omega) v
    rw [add_sub_cancel_left] at this
    exact this
  · have := tick_linear (a := g.y + g.h) (b := g.y) h1 (ne_of_gt hd) (by omega) v
    rw [show g.y - (g.y + g.h) = -g.h by ring, neg_mul, ← sub_eq_add_neg] at this
    exact this

/-- **C39** `TickmarksExtentX`/`Y`: `count` divisions of `div` from `min`, mapped to the edges in the same way. -/
theorem C39_extent (g : Grid) (min div : Rat) (count : Nat) (hd : div ≠ 0) (hc : count ≠ 0) :
    (g.tickmarksExtentX min div count).xTicks = ticksFrom min div count ∧ (g.tickmarksExtentY min div count).yTicks = ticksFrom min div count ∧
    (∀ v, (g.tickmarksExtentX min div count).X v = g.x + g.w * share min (min + count * div) v) ∧
    (∀ v, (g.tickmarksExtentY min div count).Y v = g.y + g.h - g.h * share min (min + count * div) v) := by
  have h1 := extentLoop_eq div count min
  refine ⟨h1, h1, fun v => ?_, fun v => ?_⟩
  · have := tick_linear (a := g.x) (b := g.x + g.w) h1 hd hc v
    rw [add_sub_cancel_left] at this
    exact this
  · have := tick_linear (a := g.y + g.h) (b := g.y) h1 hd hc v
    rw [show g.y - (g.y + g.h) = -g.h by ring, neg_mul, ← sub_eq_add_neg] at this
    exact this

/-- **C39** `Wd` and `Ht` are the differences of positions, `WdAbs` and `HtAbs` their absolute values, `XY` is the pair of `X` and `Y`, and `Pos` gives the corners. -/
theorem C39_distance (g : Grid) (a b : Rat) : g.wd (a - b) = g.X a - g.X b ∧ g.ht (a - b) = g.Y a - g.Y b ∧ g.wdAbs (a - b) = |g.X a - g.X b| ∧ g.htAbs (a - b) = |g.Y a - g.Y b| ∧
    g.XY a b = (g.X a, g.Y b) ∧ g.pos 0 0 = (g.x, g.y + g.h) ∧ g.pos 1 1 = (g.x + g.w, g.y) := by
  have e1 : g.xm * (a - b) = g.X a - g.X b := by unfold Grid.X; ring
  have e2 : g.ym * (a - b) = g.Y a - g.Y b := by unfold Grid.Y; ring
  refine ⟨e1, e2, ?_, ?_, rfl, ?_, ?_⟩
  · show |g.xm * (a - b)| = _
    rw [e1]
  · show |g.ym * (a - b)| = _
    rw [e2]
  · show (g.w * 0 + g.x, g.h * (1 - 0) + g.y) = _
    congr 1 <;> ring
  · show (g.w * 1 + g.x, g.h * (1 - 1) + g.y) = _
    congr 1 <;> ring

/-! ### Labels -/

/-- A number with at most `p` decimals is written exactly. -/
theorem exact_reads (p : Nat) (z : Int) : readReal (fmtF p ((z : Rat) / 10 ^ p)) = some ((z : Rat) / 10 ^ p) := by
  have hP : (0 : Rat) < 10 ^ p := by positivity
  have key : ∀ n : Nat, roundScaled p ((n : Rat) / 10 ^ p) = n := by
    intro n
    have h := roundScaled_err p ((n : Rat) / 10 ^ p) (by positivity)
    rw [div_mul_cancel₀ _ (ne_of_gt hP), abs_le] at h
    generalize roundScaled p ((n : Rat) / 10 ^ p) = r at *
    have h1 : (r : Rat) < n + 1 := by linarith [h.2]
    have h2 : (n : Rat) < r + 1 := by linarith [h.1]
    have h1 : r < n + 1 := by exact_mod_cast h1
    have h2 : n < r + 1 := by exact_mod_cast h2
    omega
  rw [readReal_fmtF]
  by_cases hz : z < 0
  · obtain ⟨n, hn⟩ := Int.eq_ofNat_of_zero_le (a := -z) (by omega)
    have hz' : z = -(n : Int) := by omega
    have hn0 : (0 : Rat) < n := by
      have : 0 < n := by omega
      exact_mod_cast this
    subst hz'
    have hneg : ((-(n : Int) : Int) : Rat) / 10 ^ p < 0 := by
      rw [div_lt_iff₀ hP]; push_cast; linarith
    rw [if_pos hneg, if_pos hneg]
    rw [show -(((-(n : Int) : Int) : Rat) / 10 ^ p) = (n : Rat) / 10 ^ p by push_cast; ring, key]
    congr 1
    push_cast
    ring
  · obtain ⟨n, rfl⟩ := Int.eq_ofNat_of_zero_le (a := z) (by omega)
    have hnn : ¬ (((n : Int) : Rat) / 10 ^ p < 0) := by
      rw [not_lt, Int.cast_natCast]; positivity
    rw [if_neg hnn, if_neg hnn, Int.cast_natCast, key, one_mul]

/-- **C39** The labels that `TickmarksContainX`/`Y` and the default formatter give have enough decimals: reading one gives exactly the value of its tick mark. -/
theorem C39_label (g : Grid) (min max : Rat) :
    (∀ t ∈ (g.tickmarksContainX min max).xTicks, readReal (fmtF (g.tickmarksContainX min max).xPrecision t) = some t) ∧
    (∀ t ∈ (g.tickmarksContainY min max).yTicks, readReal (fmtF (g.tickmarksContainY min max).yPrecision t) = some t) := by
  have key : ∀ t ∈ (tickmarks min max).1, readReal (fmtF (tickmarks min max).2 t) = some t := by
    intro t ht
    by_cases h : min < max
    · obtain ⟨m, n, d, h1, h2, hr, -⟩ := tickmarks_eq min max h
      rw [h1] at ht
      rw [h2]
      obtain ⟨i, -, rfl⟩ := List.mem_map.mp ht
      obtain ⟨z, hz⟩ := precision_ok hr (m + i)
      rw [show (m : Rat) * d + i * d = ((m + i : Int) : Rat) * d by push_cast; ring, hz]
      exact exact_reads _ _
    · unfold tickmarks at ht
      rw [if_neg h] at ht
      cases ht
  exact ⟨key, key⟩

/-- With `TickmarksExtentX` they need not: for divisions of 1/4 one decimal is printed, and the label of the tick mark at 1/4 reads 0.2. -/
theorem C39_label_false : 1 / 4 ∈ ((Grid.new 0 0 10 10).tickmarksExtentX 0 (1 / 4) 4).xTicks ∧
    fmtF ((Grid.new 0 0 10 10).tickmarksExtentX 0 (1 / 4) 4).xPrecision (1 / 4) = B "0.2" := by
  constructor <;> decide +kernel

/-! ### Grid lines -/

/-- **C39** The lines drawn: if the tick marks are equally spaced and `XDiv`, `YDiv` subdivisions are asked for, there is one vertical line at every data value `lo + j·d/XDiv` from the
first tick mark to the last, from the upper edge to the lower, a main line exactly where there is a tick mark; and the same horizontally. -/
theorem C39_lines (g : Grid) (x0 dx y0 dy : Rat) (nx ny mx my : Nat) (hx : g.xTicks = ticksFrom x0 dx nx) (hy : g.yTicks = ticksFrom y0 dy ny) (hnx : nx ≠ 0) (hny : ny ≠ 0)
    (hmx : g.xDiv = mx) (hmy : g.yDiv = my) (hmx0 : mx ≠ 0) (hmy0 : my ≠ 0) : g.lines =
      ((lineVals x0 dx mx nx).map fun p => ⟨g.X p.1, g.Y (y0 + ny * dy), g.X p.1, g.Y y0, p.2⟩) ++
      ((lineVals y0 dy my ny).map fun p => ⟨g.X x0, g.Y p.1, g.X (x0 + nx * dx), g.Y p.1, p.2⟩) := by
  have div : ∀ (lo d : Rat) (n m : Nat), n ≠ 0 → m ≠ 0 → Grid.divOf (ticksFrom lo d n) m = d / m := by
    intro lo d n m hn hm
    obtain ⟨n, rfl⟩ : ∃ k, n = k + 1 := ⟨n - 1, by omega⟩
    obtain ⟨t, ht⟩ : ∃ t, ticksFrom (lo + d) d n = (lo + d) :: t := by
      cases n with
      | zero => exact ⟨_, ticksFrom_zero _ _⟩
      | succ n => exact ⟨_, ticksFrom_succ _ _ _⟩
    unfold Grid.divOf
    rw [ticksFrom_succ, ht, if_pos (by omega)]
    simp
  have hd : ∀ (l : List Rat) (a : Rat), l.head? = some a → l.headD 0 = a := fun l a h => by cases l <;> simp_all
  have hl : ∀ (l : List Rat) (a : Rat), l.getLast? = some a → l.getLastD 0 = a := fun l a h => by rw [List.getLastD_eq_getLast?, h]; rfl
  unfold Grid.lines
  dsimp only
  rw [hx, hy, hmx, hmy, div _ _ _ _ hnx hmx0, div _ _ _ _ hny hmy0, hd _ _ (ticksFrom_head _ _ _), hl _ _ (ticksFrom_last _ _ _), hd _ _ (ticksFrom_head _ _ _),
    hl _ _ (ticksFrom_last _ _ _), show ((mx : Int) - 1).toNat = mx - 1 by omega, show ((my : Int) - 1).toNat = my - 1 by omega]
  have e1 : Grid.linePos g.X (g.wd (dx / mx)) (mx - 1) (ticksFrom x0 dx nx) = _ := linePos_eq g.xm g.xb dx mx nx (by omega) x0
  have e2 : Grid.linePos g.Y (g.ht (dy / my)) (my - 1) (ticksFrom y0 dy ny) = _ := linePos_eq g.ym g.yb dy my ny (by omega) y0
  rw [e1, e2, List.map_map, List.map_map]
  rfl

/-- **C39** `Plot` draws `count` line segments: the `j`-th joins the points of the graph at `xMin + j·(xMax - xMin)/count` and at the next such abscissa; the last one ends at `xMax`. -/
theorem C39_plot (g : Grid) (xMin xMax : Rat) (count : Nat) (fnc : Rat → Rat) (hc : count ≠ 0) :
    g.plot xMin xMax count fnc = (List.range count).map (fun j : Nat =>
      .line (g.X (xMin + j * ((xMax - xMin) / count))) (g.Y (fnc (xMin + j * ((xMax - xMin) / count))))
        (g.X (xMin + (j + 1 : Nat) * ((xMax - xMin) / count))) (g.Y (fnc (xMin + (j + 1 : Nat) * ((xMax - xMin) / count))))) ∧
    xMin + count * ((xMax - xMin) / count) = xMax := by
  constructor
  · unfold Grid.plot
    rw [if_pos (by omega), plot_loop]
    rfl
  · have : (count : Rat) ≠ 0 := by exact_mod_cast hc
    field_simp
    ring

/-- Non-vacuity of C39. -/
example : ((Grid.new 10 20 100 50).tickmarksContainX 3 17).xTicks = [0, 5, 10, 15, 20] ∧ ((Grid.new 10 20 100 50).tickmarksContainX 3 17).X 5 = 35 ∧
    ((Grid.new 10 20 100 50).tickmarksContainY (-1 / 7) (7 / 3)).Y (-1) = 70 ∧ ((Grid.new 10 20 100 50).tickmarksContainX 3 17).lines.length = 52 ∧
    (((Grid.new 10 20 100 50).tickmarksContainX 3 17).plot 0 20 7 fun x => x / 40).length = 7 := by
  refine ⟨?_, ?_, ?_, ?_, ?_⟩ <;> decide +kernel

end Verif.Props
