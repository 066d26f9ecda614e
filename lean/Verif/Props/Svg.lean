import Verif.Proof.Svg
/- C36: SVG paths. -/
namespace Verif.Props
open Verif Verif.Model Verif.Spec Verif.Proof

/-- **C36**  Resolving a path to absolute commands does not change what it draws, from any current
point; all resulting commands are absolute. Missing: relative commands right after a `closepath`
(`syncOK` excludes them), for which the claim is false, see `C36_after_close_false`. -/
theorem C36_absolutize (segs : List Seg) (cmds : List SvgCmd) (start : Pt)
    (hd : decSegs segs = some cmds) (hok : syncOK true cmds = true) :
    ∃ cmds', decSegs (absolutizePath segs) = some cmds' ∧ (∀ c ∈ cmds', isAbs c = true) ∧
      svgStrokes ⟨0, 0⟩ start cmds' = svgStrokes ⟨0, 0⟩ start cmds := by
  obtain ⟨c', h1, h2, -, h4⟩ := absolutize_sim segs cmds true true 0 0 ⟨0, 0⟩ start hd hok (by simp) (by simp)
  exact ⟨c', h1, h2, h4⟩

theorem items_letters (pf : Bytes → Option Rat) : ∀ (items : List PathItem) (cs : List SvgCmd), itemsCmds pf items = some cs →
      ∀ it ∈ items, (cmdArgs it.letter).isSome = true := by
    intro items
    induction items with
    | nil => simp
    | cons it r ih =>
      intro cs h
      obtain ⟨c, as, gs⟩ := it
      simp only [itemsCmds] at h
      split at h
      · rename_i cmd more cs' h1 hm h2
        obtain ⟨vs, -, hc⟩ := Option.bind_eq_some_iff.mp h1
        intro it hit
        rcases List.mem_cons.mp hit with e | e
        · subst e; simp [(cmdOf_spec hc).1]
        · exact ih cs' h2 it e
      · cases h

/-- **C36** (end to end) Path text made of command letters and comma separated numerals is parsed
without error, and writing the result with `SVGBasicWrite` at origin `(ox, oy)` and scale `sc` makes exactly
the strokes the SVG standard assigns to the path, scaled and moved to the origin — for every path that starts
with a moveto and has no relative command depending on a `closepath`. `pf` is `strconv.ParseFloat`. -/
theorem C36_svg_end_to_end (pf : Bytes → Option Rat) (items : List PathItem)
    (cmds : List SvgCmd) (rel : Bool) (p : Pt) (ox oy sc x y sx sy : Rat)
    (hnum : ∀ it ∈ items, ∀ t ∈ it.args ++ it.more.flatten, isNumeral t = true)
    (hmore : ∀ it ∈ items, ∀ g ∈ it.more, ∃ t r, g = t :: r ∧ startsPlain t = true)
    (hcmds : itemsCmds pf items = some (.move rel p :: cmds)) (hok : syncOK true (.move rel p :: cmds) = true) :
    ∃ segs, pathParse pf (renderPath items) = some segs ∧
      callStrokes (svgWriteFrom ox oy sc x y sx sy segs) =
        some ((svgStrokes ⟨0, 0⟩ ⟨0, 0⟩ (.move rel p :: cmds)).map (Stroke.map (place ox oy sc))) := by
  have hf := fields_items items (fun it hit => ⟨items_letters pf items _ hcmds it hit, hnum it hit⟩) []
  simp only [if_true, List.nil_append] at hf
  obtain ⟨g1, g2, g3⟩ := parse_items pf items _ [] {} 0 hcmds hmore rfl rfl rfl
  simp only [List.nil_append] at g3
  generalize hst : parseToks pf {} 0 (items.flatMap fun it => [it.letter] :: (it.args ++ it.more.flatten)) = st at g1 g2 g3
  refine ⟨absolutizePath st.segs, ?_, ?_⟩
  · simp [pathParse, fields, hf, hst, g1, g2]
  · obtain ⟨c', h1, h2, h3, h4⟩ := absolutize_sim st.segs _ true true 0 0 ⟨0, 0⟩ ⟨0, 0⟩ g3 hok (by simp) (by simp)
    have hw := svgWrite_sim ox oy sc _ c' h1 h2 h3 ⟨0, 0⟩ ⟨0, 0⟩
    rw [h4] at hw
    rw [← hw]
    -- the first segment is a moveto, so the initial position is irrelevant
    cases hs : st.segs with
    | nil => rw [hs] at g3; simp [decSegs] at g3
    | cons s r =>
      rw [hs] at g3
      simp only [decSegs] at g3
      split at g3
      · rename_i c cs e1 e2
        simp only [Option.some.injEq, List.cons.injEq] at g3
        obtain ⟨g3, -⟩ := g3
        subst g3
        have hM : (absolutizeSeg true 0 0 s).1.cmd = cM := by
          have hcmd := decSeg_cmd e1
          obtain ⟨cmd, a0, a1, a2, a3, a4, a5⟩ := s
          simp only at hcmd
          rcases hcmd with e | e | e | e | e | e | e | e | e | e | e | e | e | e <;> subst e <;>
            simp [decSeg, absolutizeSeg, cM, cm, cL, cl, cC, cc, cQ, cq, cH, ch, cV, cv, cZ, cz] at e1 ⊢
        show callStrokes (svgWriteFrom _ _ _ _ _ _ _ ((absolutizeSeg true 0 0 s).1 :: _)) =
          callStrokes (svgWriteFrom _ _ _ _ _ _ _ ((absolutizeSeg true 0 0 s).1 :: _))
        simp [svgWriteFrom, hM, callStrokes]
      · cases g3

/-- Non-vacuity: `m1,2,7,7l3,4,5,6h5zM0,0c1,1,2,2,3,3` meets the hypotheses. -/
example :
    let pf : Bytes → Option Rat := fun t => (readNat t).map fun r => (r.1 : Rat)
    let items : List PathItem :=
      [⟨109, [B "1", B "2"], [[B "7", B "7"]]⟩, ⟨108, [B "3", B "4"], [[B "5", B "6"]]⟩, ⟨104, [B "5"], []⟩, ⟨122, [], []⟩,
        ⟨77, [B "0", B "0"], []⟩, ⟨99, [B "1", B "1", B "2", B "2", B "3", B "3"], []⟩]
    (∀ it ∈ items, ∀ t ∈ it.args ++ it.more.flatten, isNumeral t = true) ∧
      (∀ it ∈ items, ∀ g ∈ it.more, startsPlain (g.headD []) = true) ∧
      renderPath items = B "m1,2,7,7l3,4,5,6h5zM0,0c1,1,2,2,3,3" ∧
      itemsCmds pf items = some [.move true ⟨1, 2⟩, .line true ⟨7, 7⟩, .line true ⟨3, 4⟩, .line true ⟨5, 6⟩, .horiz true 5, .close,
        .move false ⟨0, 0⟩, .cubic true ⟨1, 1⟩ ⟨2, 2⟩ ⟨3, 3⟩] ∧
      syncOK true [.move true ⟨1, 2⟩, .line true ⟨7, 7⟩, .line true ⟨3, 4⟩, .line true ⟨5, 6⟩, .horiz true 5, .close,
        .move false ⟨0, 0⟩, .cubic true ⟨1, 1⟩ ⟨2, 2⟩ ⟨3, 3⟩] = true := by
  decide +kernel

/-- **C36** refuted in general: after `closepath` the library keeps the last point as current point instead of
the sub-path's start, so `M 0 0 L 10 0 z l 0 5` is resolved to something that draws differently. -/
theorem C36_after_close_false :
    ¬ ∀ (segs : List Seg) (cmds : List SvgCmd), decSegs segs = some cmds →
      ∃ cmds', decSegs (absolutizePath segs) = some cmds' ∧
        svgStrokes ⟨0, 0⟩ ⟨0, 0⟩ cmds' = svgStrokes ⟨0, 0⟩ ⟨0, 0⟩ cmds := by
  intro h
  obtain ⟨c', h1, h2⟩ := h [⟨cM, 0, 0, 0, 0, 0, 0⟩, ⟨cL, 10, 0, 0, 0, 0, 0⟩, ⟨cz, 0, 0, 0, 0, 0, 0⟩, ⟨cl, 0, 5, 0, 0, 0, 0⟩]
    [.move false ⟨0, 0⟩, .line false ⟨10, 0⟩, .close, .line true ⟨0, 5⟩] (by decide +kernel)
  have e : decSegs (absolutizePath [⟨cM, 0, 0, 0, 0, 0, 0⟩, ⟨cL, 10, 0, 0, 0, 0, 0⟩, ⟨cz, 0, 0, 0, 0, 0, 0⟩, ⟨cl, 0, 5, 0, 0, 0, 0⟩]) =
      some [.move false ⟨0, 0⟩, .line false ⟨10, 0⟩, .close, .line false ⟨10, 5⟩] := by decide +kernel
  rw [e] at h1
  cases h1
  exact absurd h2 (by decide +kernel)

/-- **C36** A path whose last command has too few arguments is rejected: nothing is drawn for it. -/
theorem C36_incomplete_rejected (pf : Bytes → Option Rat) (items : List PathItem) (cmds : List SvgCmd) (c : UInt8) (n : Nat)
    (as : List Bytes) (vs : List Rat)
    (hnum : ∀ it ∈ items, ∀ t ∈ it.args ++ it.more.flatten, isNumeral t = true)
    (hmore : ∀ it ∈ items, ∀ g ∈ it.more, ∃ t r, g = t :: r ∧ startsPlain t = true)
    (hcmds : itemsCmds pf items = some cmds)
    (hc : cmdArgs c = some n) (hv : argVals pf as = some vs) (hl : as.length < n) (has : ∀ t ∈ as, isNumeral t = true) :
    pathParse pf (renderPath (items ++ [⟨c, as, []⟩])) = none := by
  have hf := fields_items (items ++ [⟨c, as, []⟩]) (fun it hit => by
    rcases List.mem_append.mp hit with h | h
    · exact ⟨items_letters pf items _ hcmds it h, hnum it h⟩
    · simp only [List.mem_singleton] at h; subst h
      exact ⟨by simp [hc], by simpa using has⟩) []
  simp only [if_true, List.nil_append] at hf
  obtain ⟨g1, g2, -⟩ := parse_items pf items _ [] {} 0 hcmds hmore rfl rfl rfl
  simp only [List.flatMap_append, List.flatMap_cons, List.flatMap_nil, List.append_nil, List.flatten_nil] at hf
  generalize htoks : (items.flatMap fun it : PathItem => [it.letter] :: (it.args ++ it.more.flatten)) = toks at g1 g2 hf
  have := parse_incomplete pf (parseToks pf {} 0 toks) (0 + toks.length) c n as vs hc hv hl g1 g2
  rw [← parseToks_append] at this
  simp [pathParse, fields, hf, this]

example : pathParse (fun t => (readNat t).map fun r => (r.1 : Rat)) (B "M1,2l3") = none := by decide +kernel

end Verif.Props
