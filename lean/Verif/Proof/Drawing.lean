import Verif.Proof.DrawEmits
import Verif.Spec.Drawing
import Verif.Model.Getters
import Verif.Props.Numbers
import Mathlib.Data.List.Forall2
/-
What drawing calls write, as instructions.
-/
namespace Verif.Proof
open Verif Verif.Model Verif.Spec

/-- Instructions as intended. -/
def Match (is : List Instr) (ws : List (List Want × String)) : Prop :=
  List.Forall₂ (fun (i : Instr) (w : List Want × String) => List.Forall₂ Meets i.1 w.1 ∧ i.2 = B w.2) is ws

theorem Match.append {a b : List Instr} {v w : List (List Want × String)} (h1 : Match a v) (h2 : Match b w) : Match (a ++ b) (v ++ w) := List.rel_append h1 h2

theorem meets_fmt (p : Nat) (q : Rat) : Meets (.word (fmtF p q)) (.num p q) := Props.C54_fmtF_reads_close p q

/-- `g` is `f` with the instructions `ws` written on the page. -/
structure Wrote (f g : Fpdf) (ws : List (List Want × String)) : Prop where
  state : g.state = f.state
  page : g.page = f.page
  k : g.k = f.k
  h : g.p.h = f.p.h
  line : ∃ line is, g.pages = modifyAt f.page (· ++ line) f.pages ∧ Lines line is ∧ Match is ws

theorem Wrote.refl (f : Fpdf) : Wrote f f [] := ⟨rfl, rfl, rfl, rfl, [], [], (modifyAt_id _ _ _ (by simp)).symm, Lines.nil, .nil⟩

theorem Wrote.trans {f g h : Fpdf} {a b : List (List Want × String)} (h1 : Wrote f g a) (h2 : Wrote g h b) : Wrote f h (a ++ b) := by
  obtain ⟨l1, i1, p1, q1, m1⟩ := h1.line
  obtain ⟨l2, i2, p2, q2, m2⟩ := h2.line
  refine ⟨h2.state.trans h1.state, h2.page.trans h1.page, h2.k.trans h1.k, h2.h.trans h1.h, l1 ++ l2, i1 ++ i2, ?_, q1.append q2, m1.append m2⟩
  rw [p2, h1.page, p1, modifyAt_modifyAt]
  simp [List.append_assoc]

theorem Wrote.out {f : Fpdf} {s : Bytes} {is : List Instr} {ws : List (List Want × String)} (hs : f.state = 2) (h : Frag s is) (m : Match is ws) : Wrote f (f.out s) ws := by
  unfold Fpdf.out
  rw [if_pos hs]
  exact ⟨rfl, rfl, rfl, rfl, s ++ [10], is, by simp [List.append_assoc], h 10 (by decide), m⟩

/-- A change of anything else. -/
theorem Wrote.upd {f g : Fpdf} (h1 : g.state = f.state) (h2 : g.page = f.page) (h3 : g.k = f.k) (h4 : g.p.h = f.p.h) (h5 : g.pages = f.pages) : Wrote f g [] :=
  ⟨h1, h2, h3, h4, [], [], h5.trans (modifyAt_id _ _ _ (by simp)).symm, Lines.nil, .nil⟩

/-- The operand as written. -/
def Want.tok : Want → Tok
  | .num p q => .word (fmtF p q)
  | .name b => .name b
  | .str b => .str b
  | .punct c => .punct c

/-- The instructions as written. -/
def written (ws : List (List Want × String)) : List Instr := ws.map fun w => (w.1.map Want.tok, B w.2)

theorem match_written (ws : List (List Want × String)) : Match (written ws) ws := by
  unfold Match written
  rw [List.forall₂_map_left_iff, List.forall₂_same]
  intro w _
  refine ⟨?_, rfl⟩
  rw [List.forall₂_map_left_iff, List.forall₂_same]
  intro x _
  cases x with
  | num p q => exact meets_fmt p q
  | name b => rfl
  | str b => rfl
  | punct c => rfl

/-- One line. -/
theorem Wrote.put {f : Fpdf} {s : Bytes} {ws : List (List Want × String)} (hs : f.state = 2) (h : Frag s (written ws)) : Wrote f (f.out s) ws := .out hs h (match_written ws)

/-- The x coordinate in points, from the left edge. -/
def px (f : Fpdf) (x : Rat) : Rat := x * f.getConversionRatio
/-- The y coordinate in points, from the lower edge, as PDF has it; `y` counts from the upper edge. -/
def py (f : Fpdf) (y : Rat) : Rat := (f.getPageSize.2 - y) * f.getConversionRatio

theorem Wrote.px {f g : Fpdf} {ws} (h : Wrote f g ws) (x : Rat) : px g x = px f x := by unfold Proof.px Fpdf.getConversionRatio; rw [h.k]
theorem Wrote.py {f g : Fpdf} {ws} (h : Wrote f g ws) (x : Rat) : py g x = py f x := by unfold Proof.py Fpdf.getConversionRatio Fpdf.getPageSize; rw [h.k, h.h]

/-- Proves that a formatted line reads as intended. -/
macro "reads" : tactic => `(tactic| (simp only [written, List.map_cons, List.map_nil, Want.tok, Proof.px, Proof.py, Fpdf.getConversionRatio, Fpdf.getPageSize]; exact frag_sprintf rfl rfl))

end Verif.Proof
