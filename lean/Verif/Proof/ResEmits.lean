import Verif.Proof.ClipEmits
/-
Drawing operations that use resources: colours, transparency, gradients, layers, fonts, images.
-/
namespace Verif.Proof
open Verif Verif.Model Verif.Spec

theorem lookup_insert_self {α β} [DecidableEq α] (k : α) (v : β) (l : List (α × β)) : lookup k (Model.insert k v l) = some v := by
  induction l with
  | nil => simp [Model.insert, lookup]
  | cons x l ih =>
    obtain ⟨a, b⟩ := x
    by_cases h : a = k <;> simp [Model.insert, lookup, h, ih]

theorem lookup_insert_ne {α β} [DecidableEq α] {k k' : α} (v : β) (l : List (α × β)) (h : k' ≠ k) :
    lookup k' (Model.insert k v l) = lookup k' l := by
  induction l with
  | nil => simp [Model.insert, lookup, h.symm]
  | cons x l ih =>
    obtain ⟨a, b⟩ := x
    by_cases h1 : a = k
    · subst h1; simp [Model.insert, lookup, h.symm]
    · by_cases h2 : a = k'
      · subst h2; simp [Model.insert, lookup, h1]
      · simp [Model.insert, lookup, h1, h2, ih]

theorem lookup_insert {α β} [DecidableEq α] (k k' : α) (v : β) (l : List (α × β)) :
    lookup k' (Model.insert k v l) = if k' = k then some v else lookup k' l := by
  split
  · next h => subst h; exact lookup_insert_self _ _ _
  · next h => exact lookup_insert_ne _ _ h

theorem lookup_insert_fresh {α β} [DecidableEq α] {k k' : α} {v w : β} {l : List (α × β)} (hf : lookup k l = none)
    (h : lookup k' l = some w) : lookup k' (Model.insert k v l) = some w := by
  rw [lookup_insert_ne]
  · exact h
  · rintro rfl; rw [hf] at h; cases h

section
variable (f : Fpdf)

/-! Colours -/

theorem rgb_plain_draw (r g b : Int) : LooseFrag (rgbColorValue r g b "G" "RG").str := by
  unfold rgbColorValue
  dsimp only
  rw [if_pos (by decide)]
  split
  · exact loose_sprintf rfl rfl rfl rfl
  · exact loose_sprintf rfl rfl rfl rfl

theorem rgb_plain_fill (r g b : Int) : LooseFrag (rgbColorValue r g b "g" "rg").str := by
  unfold rgbColorValue
  dsimp only
  rw [if_pos (by decide)]
  split
  · exact loose_sprintf rfl rfl rfl rfl
  · exact loose_sprintf rfl rfl rfl rfl

theorem setDrawColor_emits (r g b : Int) : EmitsL f (f.setDrawColor r g b) := by
  unfold Fpdf.setDrawColor
  have h := rgb_plain_draw r g b
  refine EmitsL.trans (g := { f with c.draw := rgbColorValue r g b "G" "RG" }) ?_ ?_
  · exact EmitsL.reg rfl id (fun _ => RegsLe.refl _) rfl rfl (fun hi => { hi with draw := h.col _ })
  · exact EmitsL.ite (fun _ => EmitsL.outP h) (fun _ => EmitsL.refl _)

theorem setFillColor_emits (r g b : Int) : EmitsL f (f.setFillColor r g b) := by
  unfold Fpdf.setFillColor
  have h := rgb_plain_fill r g b
  refine EmitsL.trans (g := { f with c.fill := rgbColorValue r g b "g" "rg", c.colorFlag := (rgbColorValue r g b "g" "rg").str != f.c.text.str }) ?_ ?_
  · exact EmitsL.reg rfl id (fun _ => RegsLe.refl _) rfl rfl (fun hi => { hi with fill := h.col _ })
  · exact EmitsL.ite (fun _ => EmitsL.outP h) (fun _ => EmitsL.refl _)

theorem setTextColor_emits (r g b : Int) : EmitsL f (f.setTextColor r g b) := by
  have h := rgb_plain_fill r g b
  exact EmitsL.reg rfl id (fun _ => RegsLe.refl _) rfl rfl (fun hi => { hi with text := h.col _ })

theorem Inv'.mono {a b : Regs} {d fi t i : Bytes} {bm : List (Bytes × Nat)} (h : Inv' a d fi t i bm) (hle : RegsLe a b)
    (hf : b.fonts = a.fonts) (hh : b.heap = a.heap) : Inv' b d fi t i bm :=
  { draw := h.draw.mono hle, fill := h.fill.mono hle, text := h.text.mono hle
    font := by rw [hf]; exact h.font
    fonts := by rw [hf]; exact h.fonts
    imgs := by rw [hh]; exact h.imgs
    bmap := fun k p hk => ⟨(h.bmap k p hk).1, Nat.le_trans (h.bmap k p hk).2 hle.blend⟩ }

theorem addSpotColor_emits (n : Bytes) (c m y k : Nat) : Emits f (f.addSpotColor n c m y k) := by
  unfold Fpdf.addSpotColor
  refine Emits.ite (fun _ => ?_) (fun _ => Emits.refl f)
  split
  · next hl =>
    dsimp only
    generalize SpotColor.mk (f.r.spotColorMap.length + 1) 0 (byteBound c) (byteBound m) (byteBound y) (byteBound k) = clr
    have hle : RegsLe (regsOf f) (regsOf { f with r.spotColorMap := Model.insert n clr f.r.spotColorMap }) :=
      { RegsLe.refl _ with spot := fun k c h => lookup_insert_fresh hl h }
    exact Emits.reg rfl id (fun _ => hle) rfl rfl (fun hi => Inv'.mono hi hle rfl rfl)
  · exact assignErr_emits _ _

theorem intDec_nat (n : Nat) : intDec (n : Int) = natDec n := by
  simp [intDec]

theorem spot_good {r : Regs} {k : Bytes} {c : SpotColor} (h : lookup k r.spot = some c) (t : Rat) :
    ColOk r (sprintf "/CS%d CS %.3f SCN" [.d c.id, .f t]) ∧ ColOk r (sprintf "/CS%d cs %.3f scn" [.d c.id, .f t]) := by
  constructor
  · refine ⟨[([.name (B "CS" ++ intDec c.id)], B "CS"), ([.word (fmtF 3 t)], B "SCN")], frag_sprintf rfl rfl, rfl, ?_⟩
    intro i hi
    simp only [List.mem_cons, List.not_mem_nil, or_false] at hi
    rcases hi with rfl | rfl
    · intro nm hn
      simp only [Instr.names, List.filterMap_cons, List.filterMap_nil, List.mem_singleton] at hn
      subst hn
      show resolves r (B "CS") _
      simp only [resolves, show B "CS" ≠ B "gs" by decide, show B "CS" ≠ B "sh" by decide, show B "CS" ≠ B "BDC" by decide, if_false, true_or, if_true]
      exact ⟨k, c, h, by rw [intDec_nat]⟩
    · intro nm hn; cases hn
  · refine ⟨[([.name (B "CS" ++ intDec c.id)], B "cs"), ([.word (fmtF 3 t)], B "scn")], frag_sprintf rfl rfl, rfl, ?_⟩
    intro i hi
    simp only [List.mem_cons, List.not_mem_nil, or_false] at hi
    rcases hi with rfl | rfl
    · intro nm hn
      simp only [Instr.names, List.filterMap_cons, List.filterMap_nil, List.mem_singleton] at hn
      subst hn
      show resolves r (B "cs") _
      simp only [resolves, show B "cs" ≠ B "gs" by decide, show B "cs" ≠ B "sh" by decide, show B "cs" ≠ B "BDC" by decide, if_false, or_true, if_true]
      exact ⟨k, c, h, by rw [intDec_nat]⟩
    · intro nm hn; cases hn

theorem getSpot_cases (n : Bytes) : (∃ c, f.getSpotColor n = (f, some c) ∧ lookup n f.r.spotColorMap = some c) ∨
    (∃ g, f.getSpotColor n = (g, none) ∧ Emits f g) := by
  unfold Fpdf.getSpotColor
  split
  · split
    · next c h => exact .inl ⟨c, rfl, h⟩
    · exact .inr ⟨_, rfl, assignErr_emits _ _⟩
  · exact .inr ⟨_, rfl, Emits.refl f⟩

theorem setDrawSpotColor_emits (n : Bytes) (t : Nat) : EmitsL f (f.setDrawSpotColor n t) := by
  unfold Fpdf.setDrawSpotColor
  rcases getSpot_cases f n with ⟨c, h1, h2⟩ | ⟨g, h1, h2⟩
  · rw [h1]
    dsimp only
    have h := (spot_good (r := regsOf f) h2 ((byteBound t : Rat) / 100)).1
    generalize sprintf "/CS%d CS %.3f SCN" [.d c.id, .f ((byteBound t : Rat) / 100)] = str at h ⊢
    refine EmitsL.trans (g := { f with c.draw.spotStr := n, c.draw.str := str })
      (EmitsL.reg rfl id (fun _ => RegsLe.refl _) rfl rfl (fun hi => { hi with draw := h })) ?_
    exact EmitsL.ite (fun _ => EmitsL.out (fun _ => h)) (fun _ => EmitsL.refl _)
  · rw [h1]; exact h2.loose

theorem setFillSpotColor_emits (n : Bytes) (t : Nat) : EmitsL f (f.setFillSpotColor n t) := by
  unfold Fpdf.setFillSpotColor
  rcases getSpot_cases f n with ⟨c, h1, h2⟩ | ⟨g, h1, h2⟩
  · rw [h1]
    dsimp only
    have h := (spot_good (r := regsOf f) h2 ((byteBound t : Rat) / 100)).2
    generalize sprintf "/CS%d cs %.3f scn" [.d c.id, .f ((byteBound t : Rat) / 100)] = str at h ⊢
    refine EmitsL.trans (g := { f with c.fill.spotStr := n, c.fill.str := str, c.colorFlag := str != f.c.text.str })
      (EmitsL.reg rfl id (fun _ => RegsLe.refl _) rfl rfl (fun hi => { hi with fill := h })) ?_
    exact EmitsL.ite (fun _ => EmitsL.out (fun _ => h)) (fun _ => EmitsL.refl _)
  · rw [h1]; exact h2.loose

theorem setTextSpotColor_emits (n : Bytes) (t : Nat) : EmitsL f (f.setTextSpotColor n t) := by
  unfold Fpdf.setTextSpotColor
  rcases getSpot_cases f n with ⟨c, h1, h2⟩ | ⟨g, h1, h2⟩
  · rw [h1]
    dsimp only
    have h := (spot_good (r := regsOf f) h2 ((byteBound t : Rat) / 100)).2
    exact EmitsL.reg rfl id (fun _ => RegsLe.refl _) rfl rfl (fun hi => { hi with text := h })
  · rw [h1]; exact h2.loose

/-! Transparency and gradients -/

omit f in
theorem Emits.andG {f g : Fpdf} {fmt : String} {args : List Arg} (h0 : Emits f g) (h : Inv g → GoodFrag (regsOf g) (sprintf fmt args)) :
    Emits f (g.outf fmt args) := h0.trans (Emits.outG h)

theorem gs_good {r : Regs} {p : Nat} (h1 : 1 ≤ p) (h2 : p ≤ r.blend) : GoodFrag r (sprintf "/GS%d gs" [.d p]) := by
  refine ⟨[([.name (B "GS" ++ intDec p)], B "gs")], frag_sprintf rfl rfl, PlainFrag.neutral rfl, ?_⟩
  intro i hi
  rw [List.mem_singleton.mp hi]
  intro nm hn
  simp only [Instr.names, List.filterMap_cons, List.filterMap_nil, List.mem_singleton] at hn
  subst hn
  show resolves r (B "gs") _
  simp only [resolves, if_true]
  exact ⟨p, h1, h2, by rw [intDec_nat]⟩

theorem setAlpha_emits (a : Rat) (m : Bytes) : Emits f (f.setAlpha a m) := by
  unfold Fpdf.setAlpha
  refine Emits.ite (fun _ => Emits.refl f) (fun _ => Emits.ite (fun _ => assignErr_emits _ _) (fun _ => Emits.ite (fun _ => assignErr_emits _ _)
    (fun _ => ?_)))
  dsimp only
  generalize sprintf "%s %s" [Arg.s (sprintf "%.3f" [Arg.f a]), Arg.s m] = key
  cases hl : lookup key f.r.blendMap with
  | some q =>
    dsimp only
    refine Emits.trans (g := { f with r.alpha := a, r.blendMode := m }) (Emits.upd rfl rfl id) ?_
    exact Emits.outG fun hi => gs_good (hi.bmap _ _ hl).1 (hi.bmap _ _ hl).2
  | none =>
    dsimp only
    refine Emits.andG (Emits.reg rfl id ?_ rfl rfl ?_) (fun hi => gs_good (by omega) (by simp [regsOf]))
    · exact fun _ => { RegsLe.refl _ with blend := by simp [regsOf] }
    · intro hi
      have hle : ∀ x : BlendMode, RegsLe (regsOf f) { regsOf f with blend := (f.r.blendList ++ [x]).length } := fun x =>
        { RegsLe.refl _ with blend := by simp [regsOf] }
      refine ⟨hi.draw.mono (hle _), hi.fill.mono (hle _), hi.text.mono (hle _), hi.font, hi.fonts, hi.imgs, ?_⟩
      intro k p hk
      dsimp only at hk
      rw [lookup_insert] at hk
      split at hk
      · cases hk; simp [regsOf]
      · have := hi.bmap k p hk
        simp only [regsOf, List.length_append, List.length_singleton] at this ⊢; omega

theorem areaGradient_emits (tp : Nat) (x y w h : Rat) (c1 c2 : Int × Int × Int) (x1 y1 x2 y2 r : Rat) :
    Emits f (f.areaGradient tp x y w h c1 c2 x1 y1 x2 y2 r) := by
  unfold Fpdf.areaGradient Fpdf.gradientClipStart Fpdf.gradient
  dsimp only
  refine EmitsD.done (EmitsD.trans (b := 1) ?_ (EmitsD.close 0))
  have h1 : EmitsD 0 1 f (f.outf "q %.2f %.2f %.2f %.2f re W n" [.f (x * f.k), .f ((f.p.h - y) * f.k), .f (w * f.k), .f (-h * f.k)]) :=
    EmitsD.open 0 rfl rfl rfl rfl
  generalize f.outf "q %.2f %.2f %.2f %.2f re W n" [.f (x * f.k), .f ((f.p.h - y) * f.k), .f (w * f.k), .f (-h * f.k)] = g1 at h1 ⊢
  have h2 : Emits g1 (g1.outf "%.5f 0 0 %.5f %.5f %.5f cm" [.f (w * g1.k), .f (h * g1.k), .f (x * g1.k), .f ((g1.p.h - (y + h)) * g1.k)]) := by outf
  generalize g1.outf "%.5f 0 0 %.5f %.5f %.5f cm" [.f (w * g1.k), .f (h * g1.k), .f (x * g1.k), .f ((g1.p.h - (y + h)) * g1.k)] = g2 at h2 ⊢
  refine h1.trans (Emits.toD (h2.trans ?_) 1)
  refine Emits.andG (Emits.reg rfl id ?_ rfl rfl ?_) (fun _ => ?_)
  · exact fun _ => { RegsLe.refl _ with grad := by simp [regsOf] }
  · exact fun hi => Inv'.mono (b := regsOf _) hi { RegsLe.refl _ with grad := by simp [regsOf] } rfl rfl
  · refine ⟨[([.name (B "Sh" ++ intDec _)], B "sh")], frag_sprintf rfl rfl, PlainFrag.neutral rfl, ?_⟩
    intro i hi
    rw [List.mem_singleton.mp hi]
    intro nm hn
    simp only [Instr.names, List.filterMap_cons, List.filterMap_nil, List.mem_singleton] at hn
    subst hn
    show resolves _ (B "sh") _
    simp only [resolves, show B "sh" ≠ B "gs" by decide, if_false, if_true]
    exact ⟨g2.r.gradientList.length + 1, by omega, by simp [regsOf], by rw [intDec_nat]⟩

/-! Layers -/

theorem addLayer_emits (n : Bytes) (v : Bool) : Emits f (f.addLayer n v) := by
  have hle : RegsLe (regsOf f) (regsOf (f.addLayer n v)) := { RegsLe.refl _ with layers := by simp [regsOf, Fpdf.addLayer] }
  exact Emits.reg rfl id (fun _ => hle) rfl rfl (fun hi => Inv'.mono hi hle rfl rfl)

theorem out_layer (s : Bytes) (l : Option Nat) : { f.out s with layer.currentLayer := l } = ({ f with layer.currentLayer := l } : Fpdf).out s := by
  unfold Fpdf.out; split <;> rfl

theorem endLayer_emits : Emits f f.endLayer := by
  unfold Fpdf.endLayer
  split
  · next h =>
    dsimp only [Fpdf.outs]
    rw [out_layer]
    have hf : Frag (B "EMC") [([], B "EMC")] := by
      have := frag_sprintf (fmt := "EMC") (args := []) (is := [([], B "EMC")]) rfl rfl
      rwa [B_sprintf "EMC" (by decide)] at this
    refine EmitsD.done (EmitsD.out rfl id rfl id fun _ => ⟨_, hf, fun d => ?_, ?_, fun d A st h => ⟨st, rfl, h⟩⟩)
    · simp only [layOf, h, Option.isSome_some, nestRun, nestStep]
      rfl
    · intro i hi; rw [List.mem_singleton.mp hi]; intro nm hnm; cases hnm
  · exact Emits.refl f

theorem endLayer_none : f.endLayer.layer.currentLayer = none := by
  unfold Fpdf.endLayer
  split
  · rfl
  · next h => exact h

theorem beginLayer_emits (id : Int) : Emits f (f.beginLayer id) := by
  unfold Fpdf.beginLayer
  dsimp only
  refine (endLayer_emits f).trans ?_
  have hn := endLayer_none f
  generalize f.endLayer = f at hn ⊢
  refine Emits.ite (fun h => ?_) (fun _ => Emits.refl f)
  unfold Fpdf.outf
  rw [out_layer]
  refine EmitsD.done (EmitsD.out rfl _root_.id rfl _root_.id fun _ => ⟨[([.name (B "OC"), .name (B "OC" ++ intDec id)], B "BDC")],
    frag_sprintf rfl rfl, fun d => ?_, ?_, fun d A st h => ⟨st, rfl, h⟩⟩)
  · simp only [layOf, hn, Option.isSome_none, nestRun, nestStep]
    rfl
  · intro i hi
    rw [List.mem_singleton.mp hi]
    intro nm hnm
    simp only [Instr.names, List.filterMap_cons, List.filterMap_nil, List.mem_cons, List.not_mem_nil, or_false] at hnm
    show resolves _ (B "BDC") _
    simp only [resolves, show B "BDC" ≠ B "gs" by decide, show B "BDC" ≠ B "sh" by decide, if_false, if_true]
    rcases hnm with rfl | rfl
    · exact .inl rfl
    · refine .inr ⟨id.toNat, h.2, ?_⟩
      rw [← intDec_nat, Int.toNat_of_nonneg h.1]

end
end Verif.Proof
