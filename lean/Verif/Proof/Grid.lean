import Verif.Model.Grid
import Verif.Spec.Grid
import Mathlib.Tactic.Linarith
import Mathlib.Tactic.Positivity
import Mathlib.Tactic.NormNum
/-
Tick marks and the lines of a grid.
-/
namespace Verif.Proof
open Verif Verif.Model Verif.Spec

/-! ### Nice numbers -/

theorem log_eq {x : Rat} {e : Int} (h1 : (10 : Rat) ^ e ≤ x) (h2 : x < (10 : Rat) ^ (e + 1)) : Int.log 10 x = e := by
  have hx : 0 < x := lt_of_lt_of_le (zpow_pos (by norm_num) _) h1
  have c : ((10 : Nat) : Rat) = 10 := by norm_num
  have a : e ≤ Int.log 10 x := (Int.zpow_le_iff_le_log (b := 10) (by norm_num) hx).mp (by rw [c]; exact h1)
  have b : Int.log 10 x < e + 1 := (Int.lt_zpow_iff_log_lt (b := 10) (by norm_num) hx).mp (by rw [c]; exact h2)
  omega

theorem pow_succ10 (e : Int) : (10 : Rat) ^ (e + 1) = 10 * (10 : Rat) ^ e := by
  rw [zpow_add₀ (by norm_num), zpow_one, mul_comm]

/-- The first significant digits of a positive number. -/
theorem sig (v : Rat) (hv : 0 < v) : (10 : Rat) ^ (Int.log 10 v) ≤ v ∧ v < 10 * (10 : Rat) ^ (Int.log 10 v) := by
  have c : ((10 : Nat) : Rat) = 10 := by norm_num
  have a := Int.zpow_log_le_self (b := 10) (by norm_num) hv
  have b := Int.lt_zpow_succ_log_self (b := 10) (by norm_num) v
  rw [c] at a b
  rw [pow_succ10] at b
  exact ⟨a, b⟩

/-- Rounding up to 1, 2, 5 or 10. -/
theorem niceNum_up (v : Rat) (hv : 0 < v) : ∃ e : Int, (v = 1 * (10 : Rat) ^ e ∧ niceNum v false = 1 * (10 : Rat) ^ e) ∨
    (1 * (10 : Rat) ^ e < v ∧ v ≤ 2 * (10 : Rat) ^ e ∧ niceNum v false = 2 * (10 : Rat) ^ e) ∨
    (2 * (10 : Rat) ^ e < v ∧ v ≤ 5 * (10 : Rat) ^ e ∧ niceNum v false = 5 * (10 : Rat) ^ e) ∨
    (5 * (10 : Rat) ^ e < v ∧ v ≤ 10 * (10 : Rat) ^ e ∧ niceNum v false = 10 * (10 : Rat) ^ e) := by
  obtain ⟨h1, h2⟩ := sig v hv
  refine ⟨Int.log 10 v, ?_⟩
  unfold niceNum
  generalize hP : (10 : Rat) ^ (Int.log 10 v) = P at *
  have hP0 : 0 < P := by rw [← hP]; exact zpow_pos (by norm_num) _
  dsimp only
  rw [hP, if_neg (by simp)]
  simp only [div_le_iff₀ hP0]
  by_cases a : v ≤ 1 * P
  · rw [if_pos a]; left; exact ⟨by linarith, rfl⟩
  · rw [if_neg a]; right
    push Not at a
    by_cases b : v ≤ 2 * P
    · rw [if_pos b]; left; exact ⟨a, b, rfl⟩
    · rw [if_neg b]; right
      push Not at b
      by_cases c : v ≤ 5 * P
      · rw [if_pos c]; left; exact ⟨b, c, rfl⟩
      · rw [if_neg c]; right
        push Not at c
        exact ⟨c, h2.le, rfl⟩

/-- Rounding to 1, 2, 5 or 10. -/
theorem niceNum_round (v : Rat) (e : Int) (h1 : (10 : Rat) ^ e ≤ v) (h2 : v < 10 * (10 : Rat) ^ e) : niceNum v true =
    (if v < 3 / 2 * (10 : Rat) ^ e then 1 else if v < 3 * (10 : Rat) ^ e then 2 else if v < 7 * (10 : Rat) ^ e then 5 else 10) * (10 : Rat) ^ e := by
  have hl : Int.log 10 v = e := log_eq h1 (by rw [pow_succ10]; exact h2)
  unfold niceNum
  dsimp only
  rw [hl, if_pos rfl]
  have hP0 : 0 < (10 : Rat) ^ e := zpow_pos (by norm_num) _
  simp only [div_lt_iff₀ hP0]


/-- The distance of the tick marks for a range of length `v`. -/
theorem spacing (v : Rat) (hv : 0 < v) : RoundNum (niceNum (niceNum v false / 4) true) ∧ 0 < niceNum (niceNum v false / 4) true ∧
    2 * niceNum (niceNum v false / 4) true < v ∧ v ≤ 5 * niceNum (niceNum v false / 4) true := by
  have key : ∀ (P : Rat) (e : Int), P = (10 : Rat) ^ e → 0 < P ∧ (10 : Rat) ^ (e - 1) = P / 10 := by
    intro P e h
    refine ⟨by rw [h]; exact zpow_pos (by norm_num) _, ?_⟩
    rw [h, zpow_sub_one₀ (by norm_num)]
    rfl
  obtain ⟨e, h | h | h | h⟩ := niceNum_up v hv
  · obtain ⟨h1, h2⟩ := h
    obtain ⟨hP, hQ⟩ := key _ e rfl
    have e1 : niceNum (niceNum v false / 4) true = 2 * (10 : Rat) ^ (e - 1) := by
      rw [h2, niceNum_round _ (e - 1) (by rw [hQ]; linarith) (by rw [hQ]; linarith), hQ]
      rw [if_neg (by linarith), if_pos (by linarith)]
    rw [e1]
    refine ⟨⟨2, e - 1, .inr (.inl rfl), by norm_num⟩, ?_, ?_, ?_⟩ <;> rw [hQ] <;> linarith
  · obtain ⟨h1, h2, h3⟩ := h
    obtain ⟨hP, hQ⟩ := key _ e rfl
    have e1 : niceNum (niceNum v false / 4) true = 5 * (10 : Rat) ^ (e - 1) := by
      rw [h3, niceNum_round _ (e - 1) (by rw [hQ]; linarith) (by rw [hQ]; linarith), hQ]
      rw [if_neg (by linarith), if_neg (by linarith), if_pos (by linarith)]
    rw [e1]
    refine ⟨⟨5, e - 1, .inr (.inr rfl), by norm_num⟩, ?_, ?_, ?_⟩ <;> rw [hQ] <;> linarith
  · obtain ⟨h1, h2, h3⟩ := h
    obtain ⟨hP, hQ⟩ := key _ e rfl
    have e1 : niceNum (niceNum v false / 4) true = 1 * (10 : Rat) ^ e := by
      rw [h3, niceNum_round _ e (by linarith) (by linarith), if_pos (by linarith)]
    rw [e1]
    refine ⟨⟨1, e, .inl rfl, by norm_num⟩, ?_, ?_, ?_⟩ <;> linarith
  · obtain ⟨h1, h2, h3⟩ := h
    obtain ⟨hP, hQ⟩ := key _ e rfl
    have e1 : niceNum (niceNum v false / 4) true = 2 * (10 : Rat) ^ e := by
      rw [h3, niceNum_round _ e (by linarith) (by linarith), if_neg (by linarith), if_pos (by linarith)]
    rw [e1]
    refine ⟨⟨2, e, .inr (.inl rfl), by norm_num⟩, ?_, ?_, ?_⟩ <;> linarith

/-! ### Tick marks -/


theorem ticksFrom_zero (lo d : Rat) : ticksFrom lo d 0 = [lo] := by simp [ticksFrom]

theorem ticksFrom_succ (lo d : Rat) (n : Nat) : ticksFrom lo d (n + 1) = lo :: ticksFrom (lo + d) d n := by
  unfold ticksFrom
  rw [List.range_succ_eq_map, List.map_cons, List.map_map]
  congr 1
  · simp
  · apply List.map_congr_left
    intro i _
    simp only [Function.comp_apply, Nat.succ_eq_add_one, Nat.cast_add, Nat.cast_one]
    ring

theorem ticksFrom_head (lo d : Rat) (n : Nat) : (ticksFrom lo d n).head? = some lo := by
  cases n with
  | zero => rw [ticksFrom_zero]; rfl
  | succ n => rw [ticksFrom_succ]; rfl

theorem ticksFrom_last (lo d : Rat) (n : Nat) : (ticksFrom lo d n).getLast? = some (lo + n * d) := by
  unfold ticksFrom
  rw [List.range_succ, List.map_append, List.getLast?_append]
  rfl

theorem tickLoop_eq (d : Rat) (hd : 0 < d) (n : Nat) : ∀ lo lim : Rat, lo + n * d < lim → lim ≤ lo + (n + 1) * d → tickLoop d lim lo = ticksFrom lo d n := by
  induction n with
  | zero =>
    intro lo lim h1 h2
    rw [tickLoop, dif_pos ⟨hd, by simpa using h1⟩, tickLoop, dif_neg (by rintro ⟨-, h⟩; push_cast at h2; linarith), ticksFrom_zero]
  | succ n ih =>
    intro lo lim h1 h2
    push_cast at h1 h2
    have : 0 ≤ (n : Rat) * d := by positivity
    rw [tickLoop, dif_pos ⟨hd, by linarith⟩, ih (lo + d) lim (by linarith) (by linarith), ticksFrom_succ]

theorem extentLoop_eq (d : Rat) (n : Nat) : ∀ lo, Grid.extentLoop lo d n = ticksFrom lo d n := by
  induction n with
  | zero => intro lo; rw [Grid.extentLoop, ticksFrom_zero]
  | succ n ih => intro lo; rw [Grid.extentLoop, ih, ticksFrom_succ]

theorem tickmarks_eq (min max : Rat) (h : min < max) : ∃ (m : Int) (n : Nat) (d : Rat), (tickmarks min max).1 = ticksFrom (m * d) d n ∧ (tickmarks min max).2 = tickmarkPrecision d ∧
    RoundNum d ∧ 0 < d ∧ m * d ≤ min ∧ min < m * d + d ∧ max ≤ m * d + n * d ∧ m * d + n * d < max + d ∧ 3 ≤ n ∧ n ≤ 6 := by
  obtain ⟨hr, hd, h2, h5⟩ := spacing (max - min) (by linarith)
  unfold tickmarks
  rw [if_pos h]
  dsimp only
  generalize niceNum (niceNum (max - min) false / 4) true = d at *
  have a1 : (⌊min / d⌋ : Rat) * d ≤ min := by rw [← le_div_iff₀ hd]; exact Int.floor_le _
  have a2 : min < (⌊min / d⌋ : Rat) * d + d := by
    have := Int.lt_floor_add_one (min / d)
    rw [div_lt_iff₀ hd] at this
    linarith
  have b1 : max ≤ (⌈max / d⌉ : Rat) * d := by rw [← div_le_iff₀ hd]; exact Int.le_ceil _
  have b2 : (⌈max / d⌉ : Rat) * d < max + d := by
    have := Int.ceil_lt_add_one (max / d)
    have h' := mul_lt_mul_of_pos_right this hd
    rw [add_mul, div_mul_cancel₀ _ (ne_of_gt hd)] at h'
    linarith
  have hlt : (2 : Rat) < ((⌈max / d⌉ - ⌊min / d⌋ : Int) : Rat) := by
    push_cast
    have : 2 * d < ((⌈max / d⌉ : Rat) - ⌊min / d⌋) * d := by rw [sub_mul]; linarith
    exact lt_of_mul_lt_mul_right this hd.le
  have hgt : ((⌈max / d⌉ - ⌊min / d⌋ : Int) : Rat) < 7 := by
    push_cast
    have : ((⌈max / d⌉ : Rat) - ⌊min / d⌋) * d < 7 * d := by rw [sub_mul]; linarith
    exact lt_of_mul_lt_mul_right this hd.le
  have hlt' : (2 : Int) < ⌈max / d⌉ - ⌊min / d⌋ := by exact_mod_cast hlt
  have hgt' : ⌈max / d⌉ - ⌊min / d⌋ < 7 := by exact_mod_cast hgt
  obtain ⟨n, hn⟩ : ∃ n : Nat, (n : Int) = ⌈max / d⌉ - ⌊min / d⌋ := ⟨(⌈max / d⌉ - ⌊min / d⌋).toNat, by omega⟩
  have hn' : (n : Rat) = (⌈max / d⌉ : Rat) - ⌊min / d⌋ := by exact_mod_cast hn
  have e : (⌊min / d⌋ : Rat) * d + n * d = (⌈max / d⌉ : Rat) * d := by rw [hn']; ring
  refine ⟨⌊min / d⌋, n, d, ?_, rfl, hr, hd, a1, a2, by rw [e]; exact b1, by rw [e]; exact b2, by omega, by omega⟩
  refine tickLoop_eq d hd n _ _ (by rw [e]; linarith) ?_
  have : (⌊min / d⌋ : Rat) * d + (n + 1) * d = (⌈max / d⌉ : Rat) * d + d := by rw [← e]; ring
  rw [this]
  linarith

/-- A multiple of a round number has at most as many decimals as its precision says. -/
theorem precision_ok {d : Rat} (h : RoundNum d) (m : Int) : ∃ z : Int, (m : Rat) * d = z / (10 : Rat) ^ tickmarkPrecision d := by
  obtain ⟨c, e, hc, rfl⟩ := h
  have hP : 0 < (10 : Rat) ^ e := zpow_pos (by norm_num) _
  have hl : Int.log 10 ((c : Rat) * (10 : Rat) ^ e) = e := by
    refine log_eq ?_ ?_
    · rcases hc with rfl | rfl | rfl <;> push_cast <;> linarith
    · rw [pow_succ10]; rcases hc with rfl | rfl | rfl <;> push_cast <;> linarith
  unfold tickmarkPrecision
  rw [hl]
  rcases le_total 0 e with h0 | h0
  · obtain ⟨k, rfl⟩ := Int.eq_ofNat_of_zero_le h0
    refine ⟨m * c * 10 ^ k, ?_⟩
    rw [show (-(k : Int)).toNat = 0 by omega, pow_zero, div_one]
    push_cast
    rw [zpow_natCast]
    ring
  · obtain ⟨k, hk⟩ := Int.eq_ofNat_of_zero_le (a := -e) (by omega)
    refine ⟨m * c, ?_⟩
    rw [hk, show e = -(k : Int) by omega, Int.toNat_natCast, zpow_neg, zpow_natCast]
    push_cast
    field_simp

/-! ### The lines -/

theorem subPos_eq (d : Rat) (n : Nat) : ∀ p, Grid.subPos d n p = (List.range n).map fun k : Nat => p + (k + 1) * d := by
  induction n with
  | zero => intro p; rfl
  | succ n ih =>
    intro p
    rw [Grid.subPos, ih, List.range_succ_eq_map, List.map_cons, List.map_map]
    congr 1
    · simp
    · apply List.map_congr_left
      intro i _
      simp only [Function.comp_apply, Nat.succ_eq_add_one, Nat.cast_add, Nat.cast_one]
      ring


theorem lineVals_zero (lo d : Rat) (m : Nat) : lineVals lo d m 0 = [(lo, true)] := by
  simp [lineVals]

theorem lineVals_succ (lo d : Rat) (m n : Nat) (hm : 0 < m) : lineVals lo d m (n + 1) =
    ((lo, true) :: (List.range (m - 1)).map fun k : Nat => (lo + (k + 1 : Nat) * (d / m), false)) ++ lineVals (lo + d) d m n := by
  unfold lineVals
  rw [show (n + 1) * m + 1 = m + (n * m + 1) by ring, List.range_add, List.map_append, List.map_map]
  congr 1
  · obtain ⟨p, rfl⟩ : ∃ p, m = p + 1 := ⟨m - 1, by omega⟩
    rw [List.range_succ_eq_map, List.map_cons, List.map_map]
    congr 1
    · simp
    · apply List.map_congr_left
      intro i hi
      have hi : i < p := List.mem_range.mp hi
      simp only [Function.comp_apply, Nat.succ_eq_add_one, Prod.mk.injEq, true_and, decide_eq_false_iff_not]
      rw [Nat.mod_eq_of_lt (by omega)]
      omega
  · apply List.map_congr_left
    intro i _
    have hm' : (m : Rat) ≠ 0 := by exact_mod_cast (by omega : m ≠ 0)
    simp only [Function.comp_apply, Prod.mk.injEq, decide_eq_decide, Nat.add_mod_left, and_true]
    push_cast
    field_simp
    ring

/-- The lines along one axis. -/
theorem linePos_eq (a b d : Rat) (m n : Nat) (hm : 0 < m) : ∀ lo, Grid.linePos (fun x => a * x + b) (a * (d / m)) (m - 1) (ticksFrom lo d n) =
    (lineVals lo d m n).map fun p => (a * p.1 + b, p.2) := by
  induction n with
  | zero => intro lo; rw [ticksFrom_zero, lineVals_zero, Grid.linePos]; rfl
  | succ n ih =>
    intro lo
    rw [lineVals_succ lo d m n hm, ticksFrom_succ]
    obtain ⟨t, ts, ht⟩ : ∃ t ts, ticksFrom (lo + d) d n = t :: ts := by
      cases n with
      | zero => exact ⟨_, _, ticksFrom_zero _ _⟩
      | succ n => exact ⟨_, _, ticksFrom_succ _ _ _⟩
    have hi := ih (lo + d)
    rw [ht] at hi ⊢
    rw [Grid.linePos, hi, subPos_eq, List.map_append, List.map_cons, List.cons_append, List.map_map, List.map_map]
    · congr 2
      apply List.map_congr_left
      intro k _
      simp only [Function.comp_apply, Prod.mk.injEq, and_true]
      push_cast
      ring
    · simp

/-! ### Plotting -/

/-- Point number `j` of a plot. -/
def plotPt (g : Grid) (fnc : Rat → Rat) (lo delta : Rat) (j : Nat) : Rat × Rat := (g.X (lo + j * delta), g.Y (fnc (lo + j * delta)))

theorem plot_loop (g : Grid) (fnc : Rat → Rat) (lo delta : Rat) (n : Nat) :
    (List.range (n + 1)).foldl (g.plotStep fnc delta) ⟨lo, (0, 0), (0, 0), []⟩ =
      ⟨lo + (n + 1 : Nat) * delta, plotPt g fnc lo delta n, plotPt g fnc lo delta (n + 1),
        (List.range n).map fun j => .line (plotPt g fnc lo delta j).1 (plotPt g fnc lo delta j).2 (plotPt g fnc lo delta (j + 1)).1 (plotPt g fnc lo delta (j + 1)).2⟩ := by
  induction n with
  | zero => simp [Grid.plotStep, plotPt]
  | succ n ih =>
    rw [List.range_succ, List.foldl_append, ih]
    simp only [List.foldl_cons, List.foldl_nil]
    unfold Grid.plotStep
    rw [if_neg (by omega), List.range_succ, List.map_append]
    dsimp only
    have e : lo + ((n + 1 : Nat) : Rat) * delta + delta = lo + ((n + 1 + 1 : Nat) : Rat) * delta := by push_cast; ring
    rw [e]
    rfl

end Verif.Proof
