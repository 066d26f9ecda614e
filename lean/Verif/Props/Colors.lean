import Verif.Props.Settings
import Verif.Proof.Colors
import Verif.Props.Resources
import Mathlib.Tactic.Linarith
import Mathlib.Tactic.Positivity
/-
C18: colours are clamped and read back. C19: spot colours.
-/
namespace Verif.Props
open Verif Verif.Model Verif.Spec Verif.Proof

/-! ### C18 -/

/-- A colour component limited to 0..255. -/
def clamp (v : Int) : Int := max 0 (min 255 v)

theorem colorComp_eq (v : Int) : colorComp v = (clamp v, (clamp v : Rat) / 255) := by
  have h : (if v < 0 then 0 else if v > 255 then 255 else v) = clamp v := by
    unfold clamp
    split
    · omega
    · split <;> omega
  unfold colorComp
  rw [h]

theorem rgb_triple (r g b : Int) (x y : String) : (rgbColorValue r g b x y).ir = clamp r ∧ (rgbColorValue r g b x y).ig = clamp g ∧ (rgbColorValue r g b x y).ib = clamp b := by
  unfold rgbColorValue
  rw [colorComp_eq, colorComp_eq, colorComp_eq]
  exact ⟨rfl, rfl, rfl⟩

theorem part_draw : Part (fun c : ColorSt => (c.draw.ir, c.draw.ig, c.draw.ib)) := ⟨fun a b c x y fl h1 h2 => by cases x <;> assumption⟩
theorem part_fill : Part (fun c : ColorSt => (c.fill.ir, c.fill.ig, c.fill.ib)) := ⟨fun a b c x y fl h1 h2 => by cases y <;> assumption⟩
theorem part_text : Part (fun c : ColorSt => (c.text.ir, c.text.ig, c.text.ib)) := ⟨fun a b c x y fl h1 h2 => h1⟩

/-- `SetDrawColor`. -/
def isSetDraw : Op → Bool | .setDrawColor .. => true | _ => false
/-- `SetFillColor`. -/
def isSetFill : Op → Bool | .setFillColor .. => true | _ => false
/-- `SetTextColor`. -/
def isSetText : Op → Bool | .setTextColor .. => true | _ => false

/-- Selecting a spot colour: the setting, or an error. -/
theorem getSpotColor_cases (f : Fpdf) (n : Bytes) : (∃ c, f.err = none ∧ lookup n f.r.spotColorMap = some c ∧ f.getSpotColor n = (f, some c)) ∨
    (∃ e, (f.err = none → lookup n f.r.spotColorMap = none) ∧ f.getSpotColor n = ({ f with err := some e }, none)) := by
  unfold Fpdf.getSpotColor
  cases he : f.err with
  | none =>
    rw [if_pos rfl]
    cases hl : lookup n f.r.spotColorMap with
    | none => exact .inr ⟨_, fun _ => rfl, rfl⟩
    | some c => exact .inl ⟨c, rfl, rfl, rfl⟩
  | some e =>
    rw [if_neg (by simp)]
    exact .inr ⟨e, by simp, by rw [← he]⟩

theorem c_out (f : Fpdf) (s : Bytes) : (f.out s).c = f.c := (lens_parts (lens_out f s)).2.1

theorem setDrawSpot_c (f : Fpdf) (n : Bytes) (t : Nat) : (f.setDrawSpotColor n t).c.draw.ir = f.c.draw.ir ∧ (f.setDrawSpotColor n t).c.draw.ig = f.c.draw.ig ∧
    (f.setDrawSpotColor n t).c.draw.ib = f.c.draw.ib := by
  unfold Fpdf.setDrawSpotColor
  rcases getSpotColor_cases f n with ⟨c, -, -, h⟩ | ⟨e, -, h⟩
  · rw [h]
    dsimp only
    split
    · rw [c_out]; exact ⟨rfl, rfl, rfl⟩
    · exact ⟨rfl, rfl, rfl⟩
  · rw [h]; exact ⟨rfl, rfl, rfl⟩

theorem setFillSpot_c (f : Fpdf) (n : Bytes) (t : Nat) : (f.setFillSpotColor n t).c.fill.ir = f.c.fill.ir ∧ (f.setFillSpotColor n t).c.fill.ig = f.c.fill.ig ∧
    (f.setFillSpotColor n t).c.fill.ib = f.c.fill.ib := by
  unfold Fpdf.setFillSpotColor
  rcases getSpotColor_cases f n with ⟨c, -, -, h⟩ | ⟨e, -, h⟩
  · rw [h]
    dsimp only
    split
    · rw [c_out]; exact ⟨rfl, rfl, rfl⟩
    · exact ⟨rfl, rfl, rfl⟩
  · rw [h]; exact ⟨rfl, rfl, rfl⟩

theorem setTextSpot_c (f : Fpdf) (n : Bytes) (t : Nat) : (f.setTextSpotColor n t).c.text.ir = f.c.text.ir ∧ (f.setTextSpotColor n t).c.text.ig = f.c.text.ig ∧
    (f.setTextSpotColor n t).c.text.ib = f.c.text.ib := by
  unfold Fpdf.setTextSpotColor
  rcases getSpotColor_cases f n with ⟨c, -, -, h⟩ | ⟨e, -, h⟩
  · rw [h]; exact ⟨rfl, rfl, rfl⟩
  · rw [h]; exact ⟨rfl, rfl, rfl⟩

/-- **C18** `SetDrawColor`, `SetFillColor` and `SetTextColor` are read back with each component limited to 0..255. -/
theorem C18_readback (E : Ext) (cb : Cb) (f : Fpdf) (r g b : Int) :
    (f.exec E cb (.setDrawColor r g b)).getDrawColor = (clamp r, clamp g, clamp b) ∧ (f.exec E cb (.setFillColor r g b)).getFillColor = (clamp r, clamp g, clamp b) ∧
    (f.exec E cb (.setTextColor r g b)).getTextColor = (clamp r, clamp g, clamp b) := by
  refine ⟨?_, ?_, ?_⟩
  · obtain ⟨h1, h2, h3⟩ := rgb_triple r g b "G" "RG"
    show (f.setDrawColor r g b).getDrawColor = _
    have e : (f.setDrawColor r g b).c.draw = rgbColorValue r g b "G" "RG" := by
      unfold Fpdf.setDrawColor
      dsimp only
      split
      · rw [c_out]
      · rfl
    unfold Fpdf.getDrawColor
    rw [e, h1, h2, h3]
  · obtain ⟨h1, h2, h3⟩ := rgb_triple r g b "g" "rg"
    show (f.setFillColor r g b).getFillColor = _
    have e : (f.setFillColor r g b).c.fill = rgbColorValue r g b "g" "rg" := by
      unfold Fpdf.setFillColor
      dsimp only
      split
      · rw [c_out]
      · rfl
    unfold Fpdf.getFillColor
    rw [e, h1, h2, h3]
  · obtain ⟨h1, h2, h3⟩ := rgb_triple r g b "g" "rg"
    show ((rgbColorValue r g b "g" "rg").ir, (rgbColorValue r g b "g" "rg").ig, (rgbColorValue r g b "g" "rg").ib) = _
    rw [h1, h2, h3]

/-- **C18** The colour read back stays the last one set, over any history of calls (new pages with any header and footer functions included) in which the
corresponding setter is not called; selecting spot colours does not change it either. -/
theorem C18_kept {E : Ext} {f g : Fpdf} :
    (Reach E (without isSetDraw) f g → g.getDrawColor = f.getDrawColor) ∧ (Reach E (without isSetFill) f g → g.getFillColor = f.getFillColor) ∧
    (Reach E (without isSetText) f g → g.getTextColor = f.getTextColor) := by
  refine ⟨fun h => ?_, fun h => ?_, fun h => ?_⟩
  · refine reach_part part_draw isSetDraw (fun cb f op hs hb => ?_) h
    cases op with
    | setDrawSpotColor n t =>
      obtain ⟨h1, h2, h3⟩ := setDrawSpot_c f n t
      show ((f.setDrawSpotColor n t).c.draw.ir, (f.setDrawSpotColor n t).c.draw.ig, (f.setDrawSpotColor n t).c.draw.ib) = _
      rw [h1, h2, h3]
    | _ => first | exact foot_get (fun f => (f.c.draw.ir, f.c.draw.ig, f.c.draw.ib)) E cb f _ (setter_stays hs) (fun _ => rfl) | (simp [isSetDraw] at hb) | (simp [setter] at hs)
  · refine reach_part part_fill isSetFill (fun cb f op hs hb => ?_) h
    cases op with
    | setFillSpotColor n t =>
      obtain ⟨h1, h2, h3⟩ := setFillSpot_c f n t
      show ((f.setFillSpotColor n t).c.fill.ir, (f.setFillSpotColor n t).c.fill.ig, (f.setFillSpotColor n t).c.fill.ib) = _
      rw [h1, h2, h3]
    | _ => first | exact foot_get (fun f => (f.c.fill.ir, f.c.fill.ig, f.c.fill.ib)) E cb f _ (setter_stays hs) (fun _ => rfl) | (simp [isSetFill] at hb) | (simp [setter] at hs)
  · refine reach_part part_text isSetText (fun cb f op hs hb => ?_) h
    cases op with
    | setTextSpotColor n t =>
      obtain ⟨h1, h2, h3⟩ := setTextSpot_c f n t
      show ((f.setTextSpotColor n t).c.text.ir, (f.setTextSpotColor n t).c.text.ig, (f.setTextSpotColor n t).c.text.ib) = _
      rw [h1, h2, h3]
    | _ => first | exact foot_get (fun f => (f.c.text.ir, f.c.text.ig, f.c.text.ib)) E cb f _ (setter_stays hs) (fun _ => rfl) | (simp [isSetText] at hb) | (simp [setter] at hs)

/-- A number as written to the page is in 0..1 and is the clamped component divided by 255, to three decimals. -/
def Near (w : Bytes) (v : Int) : Prop := ∃ q, readReal w = some q ∧ 0 ≤ q ∧ q ≤ 1 ∧ |q - (clamp v : Rat) / 255| ≤ 1 / 2000

/-- `%.3f` of a number of 0..1 is read as a number of 0..1, equal up to 1/2000. -/
theorem fmt3_unit (x : Rat) (h0 : 0 ≤ x) (h1 : x ≤ 1) : ∃ q, readReal (fmtF 3 x) = some q ∧ 0 ≤ q ∧ q ≤ 1 ∧ |q - x| ≤ 1 / 2000 := by
  obtain ⟨q, hq, hd⟩ := C54_fmtF_reads_close 3 x
  have hr := Proof.readReal_fmtF 3 x
  rw [if_neg (not_lt.mpr h0), if_neg (not_lt.mpr h0)] at hr
  have he := Proof.roundScaled_err 3 x h0
  have hm : roundScaled 3 x ≤ 1000 := by
    by_contra hc
    have hc' : (1001 : Rat) ≤ (roundScaled 3 x : Rat) := by exact_mod_cast (by omega : 1001 ≤ roundScaled 3 x)
    rw [abs_le] at he
    have := he.2
    norm_num at this
    linarith
  have hq' : q = 1 * (roundScaled 3 x : Rat) / 10 ^ 3 := by rw [hr] at hq; simpa using hq.symm
  refine ⟨q, hq, ?_, ?_, ?_⟩
  · rw [hq']; positivity
  · rw [hq', div_le_one (by norm_num)]
    have : (roundScaled 3 x : Rat) ≤ 1000 := by exact_mod_cast hm
    linarith
  · refine hd.trans ?_
    norm_num

theorem near_fmt (v : Int) : Near (fmtF 3 ((clamp v : Rat) / 255)) v := by
  have h0 : (0 : Rat) ≤ (clamp v : Rat) / 255 := by
    have : (0 : Int) ≤ clamp v := by unfold clamp; omega
    have h : (0 : Rat) ≤ (clamp v : Rat) := by exact_mod_cast this
    positivity
  have h1 : (clamp v : Rat) / 255 ≤ 1 := by
    have : clamp v ≤ 255 := by unfold clamp; omega
    have h : (clamp v : Rat) ≤ 255 := by exact_mod_cast this
    rw [div_le_one (by norm_num)]; exact h
  exact fmt3_unit _ h0 h1

/-- The instruction that selects a colour: one grey level, or three components. -/
def Selects (line gray full : Bytes) (r g b : Int) : Prop :=
  (∃ w, instrs line = [([.word w], gray)] ∧ Near w r ∧ Near w g ∧ Near w b) ∨
  (∃ w1 w2 w3, instrs line = [([.word w1, .word w2, .word w3], full)] ∧ Near w1 r ∧ Near w2 g ∧ Near w3 b)

theorem rgb_selects (r g b : Int) (gray full : String) (hg : gray.length > 0)
    (f1 : ∀ a : Rat, Frag (sprintf "%.3f %s" [.f a, .s (B gray)]) [([.word (fmtF 3 a)], B gray)])
    (f2 : ∀ a b c : Rat, Frag (sprintf "%.3f %.3f %.3f %s" [.f a, .f b, .f c, .s (B full)]) [([.word (fmtF 3 a), .word (fmtF 3 b), .word (fmtF 3 c)], B full)]) :
    Selects ((rgbColorValue r g b gray full).str ++ [10]) (B gray) (B full) r g b := by
  unfold rgbColorValue
  rw [colorComp_eq, colorComp_eq, colorComp_eq]
  dsimp only
  rw [if_pos hg]
  by_cases h : clamp r = clamp g ∧ (clamp r : Rat) / 255 = (clamp b : Rat) / 255
  · rw [if_pos (by simpa using h)]
    have hb : clamp r = clamp b := by
      have h2 := h.2
      rw [div_left_inj' (by norm_num)] at h2
      exact_mod_cast h2
    refine .inl ⟨_, ((f1 _) 10 (by decide)).instrs, near_fmt r, ?_, ?_⟩
    · rw [h.1]; exact near_fmt g
    · rw [hb]; exact near_fmt b
  · rw [if_neg (by simpa using h)]
    exact .inr ⟨_, _, _, ((f2 _ _ _) 10 (by decide)).instrs, near_fmt r, near_fmt g, near_fmt b⟩

/-- **C18** On a page, `SetDrawColor` and `SetFillColor` write one line, the instruction that selects the colour: `G`/`g` with a grey level or `RG`/`rg` with
three components, each in 0..1. -/
theorem C18_operator (E : Ext) (cb : Cb) (f : Fpdf) (r g b : Int) (hp : f.page > 0) (hs : f.state = 2) :
    (∃ line, (f.exec E cb (.setDrawColor r g b)).pages = modifyAt f.page (· ++ line) f.pages ∧ Selects line (B "G") (B "RG") r g b) ∧
    (∃ line, (f.exec E cb (.setFillColor r g b)).pages = modifyAt f.page (· ++ line) f.pages ∧ Selects line (B "g") (B "rg") r g b) := by
  refine ⟨⟨(rgbColorValue r g b "G" "RG").str ++ [10], ?_, ?_⟩, ⟨(rgbColorValue r g b "g" "rg").str ++ [10], ?_, ?_⟩⟩
  · show (f.setDrawColor r g b).pages = _
    unfold Fpdf.setDrawColor Fpdf.out
    simp [hp, hs]
  · refine rgb_selects r g b "G" "RG" (by decide) (fun a => ?_) (fun a b c => ?_)
    · exact sprintf_frag "%.3f %s" [.f a, .reg (B "G")] rfl (by simp [SArg.Ok]; decide +kernel)
    · exact sprintf_frag "%.3f %.3f %.3f %s" [.f a, .f b, .f c, .reg (B "RG")] rfl (by simp [SArg.Ok]; decide +kernel)
  · show (f.setFillColor r g b).pages = _
    unfold Fpdf.setFillColor Fpdf.out
    simp [hp, hs]
  · refine rgb_selects r g b "g" "rg" (by decide) (fun a => ?_) (fun a b c => ?_)
    · exact sprintf_frag "%.3f %s" [.f a, .reg (B "g")] rfl (by simp [SArg.Ok]; decide +kernel)
    · exact sprintf_frag "%.3f %.3f %.3f %s" [.f a, .f b, .f c, .reg (B "rg")] rfl (by simp [SArg.Ok]; decide +kernel)

/-- Non-vacuity of C18: out of range components on a page, then an unrelated history that starts a new page. -/
example : ((after {} [.addPage, .setDrawColor 300 (-5) 128]).getDrawColor = (255, 0, 128)) ∧
    (after {} [.addPage, .setDrawColor 300 (-5) 128]).page > 0 ∧ (after {} [.addPage, .setDrawColor 300 (-5) 128]).state = 2 ∧
    (after {} [.addPage, .setDrawColor 300 (-5) 128, .setFillColor 1 2 3, .addPage, .line 1 1 2 2]).getDrawColor = (255, 0, 128) ∧
    clamp 300 = 255 ∧ clamp (-5) = 0 ∧ clamp 128 = 128 := by decide +kernel

/-! ### C19 -/

/-- The spot colour of a name: its number and its CMYK components. -/
def spotOf (f : Fpdf) (name : Bytes) : Option (Nat × Nat × Nat × Nat × Nat) := (lookup name f.r.spotColorMap).map fun c => (c.id, c.c, c.m, c.y, c.k)

/-- The names of the spot colours, in the order of their registration. -/
def spotNames (f : Fpdf) : List Bytes := f.r.spotColorMap.map (·.1)

theorem byteBound_eq (v : Nat) : byteBound v = min v 100 := by unfold byteBound; split <;> omega

theorem insert_fresh {α β : Type} [DecidableEq α] {k : α} {m : List (α × β)} (v : β) (h : lookup k m = none) : Model.insert k v m = m ++ [(k, v)] := by
  induction m with
  | nil => rfl
  | cons x r ih =>
    obtain ⟨a, b⟩ := x
    unfold lookup at h
    unfold Model.insert
    split at h
    · cases h
    · rename_i hne
      rw [if_neg hne, ih h]
      rfl

theorem spotOf_none {f : Fpdf} {name : Bytes} (h : spotOf f name = none) : lookup name f.r.spotColorMap = none := by
  unfold spotOf at h
  simpa using h

theorem addSpot_fresh {f : Fpdf} {name : Bytes} (c m y k : Nat) (he : f.err = none) (h : lookup name f.r.spotColorMap = none) :
    ∃ x : SpotColor, (x.id, x.c, x.m, x.y, x.k) = (f.r.spotColorMap.length + 1, min c 100, min m 100, min y 100, min k 100) ∧
      f.addSpotColor name c m y k = { f with r.spotColorMap := f.r.spotColorMap ++ [(name, x)] } := by
  let x : SpotColor := { id := f.r.spotColorMap.length + 1, c := byteBound c, m := byteBound m, y := byteBound y, k := byteBound k }
  refine ⟨x, ?_, ?_⟩
  · rw [← byteBound_eq, ← byteBound_eq, ← byteBound_eq, ← byteBound_eq]
  · unfold Fpdf.addSpotColor
    rw [if_pos he, h]
    show { f with r.spotColorMap := Model.insert name x f.r.spotColorMap } = _
    rw [insert_fresh x h]

/-- **C19** Registering a new name adds it, with the next number and components limited to 0..100; the other names keep theirs, and nothing is written. -/
theorem C19_register (E : Ext) (cb : Cb) (f : Fpdf) (name : Bytes) (c m y k : Nat) (he : f.err = none) (h : spotOf f name = none) :
    (f.exec E cb (.addSpotColor name c m y k)).err = none ∧ spotNames (f.exec E cb (.addSpotColor name c m y k)) = spotNames f ++ [name] ∧
    spotOf (f.exec E cb (.addSpotColor name c m y k)) name = some ((spotNames f).length + 1, min c 100, min m 100, min y 100, min k 100) ∧
    (∀ other, other ≠ name → spotOf (f.exec E cb (.addSpotColor name c m y k)) other = spotOf f other) ∧
    (f.exec E cb (.addSpotColor name c m y k)).pages = f.pages := by
  have h' := spotOf_none h
  obtain ⟨x, hx, e⟩ := addSpot_fresh c m y k he h'
  show (f.addSpotColor name c m y k).err = none ∧ spotNames (f.addSpotColor name c m y k) = spotNames f ++ [name] ∧ spotOf (f.addSpotColor name c m y k) name = _ ∧
    (∀ other, other ≠ name → spotOf (f.addSpotColor name c m y k) other = spotOf f other) ∧ (f.addSpotColor name c m y k).pages = f.pages
  rw [e, ← insert_fresh x h']
  refine ⟨he, ?_, ?_, fun o ho => ?_, rfl⟩
  · show (Model.insert name x f.r.spotColorMap).map (·.1) = _
    rw [insert_fresh x h', List.map_append]
    rfl
  · show (lookup name (Model.insert name x f.r.spotColorMap)).map _ = _
    rw [lookup_insert_self]
    show some (x.id, x.c, x.m, x.y, x.k) = _
    rw [hx]
    unfold spotNames
    rw [List.length_map]
  · show (lookup o (Model.insert name x f.r.spotColorMap)).map _ = _
    rw [lookup_insert_ne _ _ ho]
    rfl

/-- **C19** Registering a name twice is an error that changes nothing else. -/
theorem C19_twice (E : Ext) (cb : Cb) (f : Fpdf) (name : Bytes) (c m y k : Nat) (he : f.err = none) (h : spotOf f name ≠ none) :
    ∃ e, f.exec E cb (.addSpotColor name c m y k) = { f with err := some e } := by
  show ∃ e, f.addSpotColor name c m y k = _
  unfold Fpdf.addSpotColor
  rw [if_pos he]
  cases hl : lookup name f.r.spotColorMap with
  | none => exact absurd (by unfold spotOf; rw [hl]; rfl) h
  | some x => exact ⟨_, rfl⟩

/-- **C19** Selecting a name that is not registered is an error that changes nothing else. -/
theorem C19_unknown (E : Ext) (cb : Cb) (f : Fpdf) (name : Bytes) (t : Nat) (h : spotOf f name = none) :
    (∃ e, f.exec E cb (.setDrawSpotColor name t) = { f with err := some e }) ∧ (∃ e, f.exec E cb (.setFillSpotColor name t) = { f with err := some e }) ∧
    (∃ e, f.exec E cb (.setTextSpotColor name t) = { f with err := some e }) := by
  rcases getSpotColor_cases f name with ⟨c, he, hl, -⟩ | ⟨e, -, hg⟩
  · rw [spotOf_none h] at hl; cases hl
  · refine ⟨⟨e, ?_⟩, ⟨e, ?_⟩, ⟨e, ?_⟩⟩
    · show f.setDrawSpotColor name t = _
      unfold Fpdf.setDrawSpotColor
      rw [hg]
    · show f.setFillSpotColor name t = _
      unfold Fpdf.setFillSpotColor
      rw [hg]
    · show f.setTextSpotColor name t = _
      unfold Fpdf.setTextSpotColor
      rw [hg]

/-- The spot colours of a document: distinct names, numbered 1, 2, … in the order of registration, components of 0..100. -/
structure SpotsOk (f : Fpdf) : Prop where
  nodup : (spotNames f).Nodup
  ids : ∀ i name, (spotNames f)[i]? = some name → ∃ c m y k, spotOf f name = some (i + 1, c, m, y, k) ∧ c ≤ 100 ∧ m ≤ 100 ∧ y ≤ 100 ∧ k ≤ 100

/-- The spot colours of `g` extend those of `f`. -/
structure SpotsLe (f g : Fpdf) : Prop where
  names : spotNames f <+: spotNames g
  same : ∀ name x, spotOf f name = some x → spotOf g name = some x
  ok : SpotsOk f → SpotsOk g

theorem spot_congr {f g : Fpdf} (h : g.r.spotColorMap = f.r.spotColorMap) : SpotsLe f g := by
  have e1 : spotNames g = spotNames f := by unfold spotNames; rw [h]
  have e2 : spotOf g = spotOf f := by funext n; unfold spotOf; rw [h]
  exact ⟨by rw [e1], fun n x hx => by rw [e2]; exact hx, fun ok => ⟨by rw [e1]; exact ok.nodup, fun i n hi => by rw [e2]; rw [e1] at hi; exact ok.ids i n hi⟩⟩

theorem spot_data : DataRel SpotsLe where
  trans := fun f g h a b => ⟨a.names.trans b.names, fun n x hx => b.same n x (a.same n x hx), fun o => b.ok (a.ok o)⟩
  stp := fun f g hb => by
    have h := congrArg (fun f : Fpdf => f.r.spotColorMap) hb
    exact spot_congr h

theorem lookup_none_keys {α β : Type} [DecidableEq α] {k : α} {m : List (α × β)} (h : lookup k m = none) : k ∉ m.map (·.1) := by
  induction m with
  | nil => exact fun h => by cases h
  | cons x r ih =>
    obtain ⟨a, b⟩ := x
    unfold lookup at h
    split at h
    · cases h
    · rename_i hne
      rw [List.map_cons, List.mem_cons, not_or]
      exact ⟨fun e => hne e.symm, ih h⟩

theorem spot_own (E : Ext) (cb : Cb) (f : Fpdf) (op : Op) (hs : staysOnPage op = true) : SpotsLe f (f.exec E cb op) := by
  by_cases hu : ∃ n c m y k, op = .addSpotColor n c m y k
  · obtain ⟨n, c, m, y, k, rfl⟩ := hu
    cases he : f.err with
    | some e => exact spot_congr (by show (f.addSpotColor n c m y k).r.spotColorMap = _; unfold Fpdf.addSpotColor; rw [if_neg (by rw [he]; simp)])
    | none =>
      cases hl : spotOf f n with
      | some x =>
        obtain ⟨e, h⟩ := C19_twice E cb f n c m y k he (by rw [hl]; simp)
        exact spot_congr (by rw [h])
      | none =>
        obtain ⟨-, h2, h3, h4, -⟩ := C19_register E cb f n c m y k he hl
        generalize f.exec E cb (.addSpotColor n c m y k) = g at h2 h3 h4
        refine ⟨by rw [h2]; exact List.prefix_append _ _, fun o x hx => ?_, fun ok => ⟨?_, fun i o hi => ?_⟩⟩
        · rw [h4 o (by rintro rfl; rw [hl] at hx; cases hx)]; exact hx
        · rw [h2, List.nodup_append]
          refine ⟨ok.nodup, by simp, ?_⟩
          intro a ha b hb hab
          rw [List.mem_singleton] at hb
          subst hb; subst hab
          exact lookup_none_keys (spotOf_none hl) ha
        · rw [h2] at hi
          rcases Nat.lt_trichotomy i (spotNames f).length with hlt | rfl | hgt
          · rw [List.getElem?_append_left hlt] at hi
            obtain ⟨c, m, y, k, h5, h6⟩ := ok.ids i o hi
            exact ⟨c, m, y, k, by rw [h4 o (by rintro rfl; rw [hl] at h5; cases h5)]; exact h5, h6⟩
          · rw [List.getElem?_append_right (Nat.le_refl _), Nat.sub_self] at hi
            simp only [List.getElem?_cons_zero, Option.some.injEq] at hi
            subst hi
            exact ⟨_, _, _, _, h3, Nat.min_le_right _ _, Nat.min_le_right _ _, Nat.min_le_right _ _, Nat.min_le_right _ _⟩
          · rw [List.getElem?_eq_none (by rw [List.length_append]; simp; omega)] at hi
            cases hi
  · exact spot_congr (foot_get (fun f => f.r.spotColorMap) E cb f op hs (fun f => by cases op <;> first | rfl | exact absurd ⟨_, _, _, _, _, rfl⟩ hu))

theorem spot_reach {E : Ext} {f g : Fpdf} (h : Reach E noClose f g) : SpotsLe f g :=
  (spot_data.reach noClose_open (fun cb f op ho => spot_own E cb f op (helper_stays ho)) (fun f cb op _ hs => spot_own E cb f op hs) h).2

/-- **C19** In every history the registered names are distinct and numbered 1, 2, … in the order of their registration (so two names never share a number), their
components are at most 100, and a registered colour is never lost or changed. -/
theorem C19_numbers (E : Ext) (o u s : Bytes) (sz : Size) (f0 f : Fpdf) (h0 : Reach E noClose (Fpdf.new o u s sz) f0) (h : Reach E noClose f0 f) :
    SpotsOk f ∧ spotNames f0 <+: spotNames f ∧ ∀ name x, spotOf f0 name = some x → spotOf f name = some x := by
  have hn : (Fpdf.new o u s sz).r.spotColorMap = [] := new_get (fun f => f.r.spotColorMap) (fun _ => rfl) o u s sz
  have ok0 : SpotsOk (Fpdf.new o u s sz) := by
    have e : spotNames (Fpdf.new o u s sz) = [] := by unfold spotNames; rw [hn]; rfl
    exact ⟨by rw [e]; exact List.nodup_nil, fun i n hi => by rw [e] at hi; cases hi⟩
  have a := spot_reach h
  exact ⟨a.ok ((spot_reach h0).ok ok0), a.names, a.same⟩

/-- Two names never share a number. -/
theorem SpotsOk.inj {f : Fpdf} (h : SpotsOk f) {a b : Bytes} {i c m y k c' m' y' k' : Nat} (ha : spotOf f a = some (i, c, m, y, k)) (hb : spotOf f b = some (i, c', m', y', k')) : a = b := by
  have key : ∀ {a : Bytes} {x : Nat × Nat × Nat × Nat × Nat}, spotOf f a = some x → ∃ j, (spotNames f)[j]? = some a ∧ x.1 = j + 1 := by
    intro a x hx
    have hm : a ∈ spotNames f := by
      unfold spotOf at hx
      cases hl : lookup a f.r.spotColorMap with
      | none => rw [hl] at hx; cases hx
      | some v => exact lookup_keys hl
    obtain ⟨j, hj⟩ := List.getElem?_of_mem hm
    obtain ⟨c, m, y, k, h1, -⟩ := h.ids j a hj
    rw [hx] at h1
    cases h1
    exact ⟨j, hj, rfl⟩
  obtain ⟨j, h1, e1⟩ := key ha
  obtain ⟨j', h2, e2⟩ := key hb
  dsimp only at e1 e2
  have : j = j' := by omega
  subst this
  rw [h1] at h2
  exact Option.some.inj h2

/-- The two instructions that select a spot colour: the colour space of its number, and a tint of 0..1. -/
def SelectsSpot (line cs scn : Bytes) (id tint : Nat) : Prop :=
  ∃ w q, instrs line = [([.name (B "CS" ++ natDec id)], cs), ([.word w], scn)] ∧ readReal w = some q ∧ 0 ≤ q ∧ q ≤ 1 ∧ |q - (min tint 100 : Nat) / 100| ≤ 1 / 2000

theorem tint_unit (t : Nat) : (0 : Rat) ≤ ((byteBound t : Nat) : Rat) / 100 ∧ ((byteBound t : Nat) : Rat) / 100 ≤ 1 := by
  rw [byteBound_eq]
  have h : ((min t 100 : Nat) : Rat) ≤ 100 := by exact_mod_cast Nat.min_le_right _ _
  exact ⟨by positivity, by rw [div_le_one (by norm_num)]; exact h⟩

theorem selectsSpot (id t : Nat) : SelectsSpot (sprintf "/CS%d CS %.3f SCN" [.d id, .f ((byteBound t : Rat) / 100)] ++ [10]) (B "CS") (B "SCN") id t ∧
    SelectsSpot (sprintf "/CS%d cs %.3f scn" [.d id, .f ((byteBound t : Rat) / 100)] ++ [10]) (B "cs") (B "scn") id t := by
  obtain ⟨q, h1, h2, h3, h4⟩ := fmt3_unit _ (tint_unit t).1 (tint_unit t).2
  rw [byteBound_eq] at h4
  have e : intDec (id : Int) = natDec id := by simp [intDec]
  constructor
  · refine ⟨_, q, ?_, h1, h2, h3, h4⟩
    have h : Frag (sprintf "/CS%d CS %.3f SCN" [.d id, .f ((byteBound t : Rat) / 100)]) [([.name (B "CS" ++ intDec id)], B "CS"), ([.word (fmtF 3 ((byteBound t : Rat) / 100))], B "SCN")] := frag_sprintf rfl rfl
    rw [e] at h
    exact (h 10 (by decide)).instrs
  · refine ⟨_, q, ?_, h1, h2, h3, h4⟩
    have h : Frag (sprintf "/CS%d cs %.3f scn" [.d id, .f ((byteBound t : Rat) / 100)]) [([.name (B "CS" ++ intDec id)], B "cs"), ([.word (fmtF 3 ((byteBound t : Rat) / 100))], B "scn")] := frag_sprintf rfl rfl
    rw [e] at h
    exact (h 10 (by decide)).instrs

/-- **C19** On a page, selecting a registered spot colour writes one line, which selects the colour space of its number and the tint limited to 0..100 per cent; the
name and components of the colour are then read back by `GetDrawSpotColor` and `GetFillSpotColor` (unless the name is empty). -/
theorem C19_select (E : Ext) (cb : Cb) (f : Fpdf) (name : Bytes) (t id c m y k : Nat) (he : f.err = none) (h : spotOf f name = some (id, c, m, y, k)) (hn : name ≠ [])
    (hp : f.page > 0) (hs : f.state = 2) :
    ((∃ line, (f.exec E cb (.setDrawSpotColor name t)).pages = modifyAt f.page (· ++ line) f.pages ∧ SelectsSpot line (B "CS") (B "SCN") id t) ∧
      (f.exec E cb (.setDrawSpotColor name t)).getDrawSpotColor = (name, c, m, y, k)) ∧
    ((∃ line, (f.exec E cb (.setFillSpotColor name t)).pages = modifyAt f.page (· ++ line) f.pages ∧ SelectsSpot line (B "cs") (B "scn") id t) ∧
      (f.exec E cb (.setFillSpotColor name t)).getFillSpotColor = (name, c, m, y, k)) := by
  obtain ⟨x, hx, hx2⟩ : ∃ x : SpotColor, lookup name f.r.spotColorMap = some x ∧ (x.id, x.c, x.m, x.y, x.k) = (id, c, m, y, k) := by
    unfold spotOf at h
    cases hl : lookup name f.r.spotColorMap with
    | none => rw [hl] at h; cases h
    | some x => rw [hl] at h; exact ⟨x, rfl, by simpa using h⟩
  have hg : f.getSpotColor name = (f, some x) := by unfold Fpdf.getSpotColor; rw [if_pos he, hx]
  simp only [Prod.mk.injEq] at hx2
  obtain ⟨rfl, rfl, rfl, rfl, rfl⟩ := hx2
  obtain ⟨s1, s2⟩ := selectsSpot x.id t
  refine ⟨⟨⟨_, ?_, s1⟩, ?_⟩, ⟨⟨_, ?_, s2⟩, ?_⟩⟩
  · show (f.setDrawSpotColor name t).pages = _
    unfold Fpdf.setDrawSpotColor Fpdf.out
    rw [hg]
    simp [hp, hs]
  · show (f.setDrawSpotColor name t).getDrawSpotColor = _
    unfold Fpdf.setDrawSpotColor Fpdf.out Fpdf.getDrawSpotColor Fpdf.returnSpotColor Fpdf.getSpotColor
    rw [if_pos he, hx]
    simp [hp, hs, he, hx, hn]
  · show (f.setFillSpotColor name t).pages = _
    unfold Fpdf.setFillSpotColor Fpdf.out
    rw [hg]
    simp [hp, hs]
  · show (f.setFillSpotColor name t).getFillSpotColor = _
    unfold Fpdf.setFillSpotColor Fpdf.out Fpdf.getFillSpotColor Fpdf.returnSpotColor Fpdf.getSpotColor
    rw [if_pos he, hx]
    simp [hp, hs, he, hx, hn]

/-- **C19** In the file, the colour space of the number of a registered colour is the separation of that name (spaces written `#20`) with its components. -/
theorem C19_file (E : Ext) (o u s : Bytes) (sz : Size) (f0 f : Fpdf) (cb : Cb) (wf : Bool) (h0 : Reach E pagesFirst (Fpdf.new o u s sz) f0) (hf : Reach E pagesFirst f0 f)
    (hcb : CbReach E pagesFirst cb) (hok : errOf E cb f wf = none) (hsize : (fileOf E cb f wf).length < 10 ^ 10) (name : Bytes) (id c m y k : Nat)
    (h : spotOf f0 name = some (id, c, m, y, k)) :
    ∃ version items root info dict n, IsPdf (fileOf E cb f wf) [] version items root info ∧ (2, Body.plain (B "<<\n" ++ dict ++ B ">>\n")) ∈ items ∧
      Names dict (B "ColorSpace") (B "CS" ++ natDec id) n ∧
      (n, Body.plain (B "[/Separation /" ++ replaceAll (B " ") (B "#20") name ++ B "\n/DeviceCMYK <<\n/Range [0 1 0 1 0 1 0 1] /C0 [0 0 0 0] \n/C1 [" ++
        fmtF 3 ((c : Rat) / 100) ++ B " " ++ fmtF 3 ((m : Rat) / 100) ++ B " " ++ fmtF 3 ((y : Rat) / 100) ++ B " " ++ fmtF 3 ((k : Rat) / 100) ++
        B "] \n/FunctionType 2 /Domain [0 1] /N 1>>]\n")) ∈ items := by
  obtain ⟨last, v, A, P, M, T, d, items, hp, hb⟩ := printed_pf (h0.trans hf) hcb hok
  have hpdf := hp.written.pdf hsize
  rw [hb] at hpdf
  have hn : last.n = 2 := hp.op.n.trans (pf_fresh (h0.trans hf)).n
  have hl : SpotsLe f0 last := last_data (G := pagesFirst) pagesFirst_open spot_data (fun cb f op ho => spot_own E cb f op (helper_stays ho)) (fun f cb op _ hs => spot_own E cb f op hs)
    hf hcb hp.eq hp.page1
  have hx0 := hl.same name _ h
  obtain ⟨x, hx, hx2⟩ : ∃ x : SpotColor, lookup name last.r.spotColorMap = some x ∧ (x.id, x.c, x.m, x.y, x.k) = (id, c, m, y, k) := by
    unfold spotOf at hx0
    cases hl : lookup name last.r.spotColorMap with
    | none => rw [hl] at hx0; cases hx0
    | some x => rw [hl] at hx0; exact ⟨x, rfl, by simpa using hx0⟩
  simp only [Prod.mk.injEq] at hx2
  obtain ⟨rfl, rfl, rfl, rfl, rfl⟩ := hx2
  obtain ⟨n, h1, h2⟩ := hp.written.cs hp.state hn hx
  exact ⟨v, items, _, _, d, n, hpdf, hp.written.mem_dict, h1, h2⟩

/-- Non-vacuity of C19: two colours, one with components out of range, selected on a page. -/
def spots : Fpdf := after (Fpdf.new [] [] [] {}) [.addSpotColor (B "Pink One") 10 200 0 0, .addSpotColor (B "Sea") 90 10 0 0, .addPage, .setDrawSpotColor (B "Sea") 150, .line 1 1 2 2]

example : Reach {} pagesFirst (Fpdf.new [] [] [] {}) spots ∧ errOf {} {} spots false = none ∧ (fileOf {} {} spots false).length < 10 ^ 10 ∧ spots.err = none ∧ spots.page > 0 ∧ spots.state = 2 ∧
    spotOf spots (B "Pink One") = some (1, 10, 100, 0, 0) ∧ spotOf spots (B "Sea") = some (2, 90, 10, 0, 0) ∧ spotOf spots (B "Sky") = none ∧
    spots.getDrawSpotColor = (B "Sea", 90, 10, 0, 0) :=
  ⟨reach_after pfB_ok _ _ _ (Reach.refl _) (by decide +kernel), by decide +kernel, by decide +kernel, by decide +kernel, by decide +kernel, by decide +kernel, by decide +kernel,
    by decide +kernel, by decide +kernel, by decide +kernel⟩

end Verif.Props
