import Verif.Proof.Emits
/-
The drawing operations are `Emits`.
-/
namespace Verif.Proof
open Verif Verif.Model Verif.Spec

/-- Arguments as symbolic arguments: strings are taken to be single words. -/
def toS : Arg → SArg
  | .f q => .f q
  | .d z => .d z
  | .s b => .reg b

def argOk : Arg → Bool
  | .s b => b.all isRegular
  | _ => true

/-- The names of instruction `i` resolve, checked by evaluation: no names. -/
theorem map_toS_arg (args : List Arg) : (args.map toS).map SArg.arg = args := by
  induction args with
  | nil => rfl
  | cons a r ih => cases a <;> simp [toS, SArg.arg, ih]

theorem ok_toS {args : List Arg} (h : args.all argOk = true) : ∀ a ∈ args.map toS, a.Ok := by
  intro a ha
  obtain ⟨x, hx, rfl⟩ := List.mem_map.mp ha
  have := List.all_eq_true.mp h x hx
  cases x <;> simp only [toS, SArg.Ok]
  simpa [argOk] using this

theorem frag_sprintf {fmt : String} {args : List Arg} {is : List Instr} (h : sym .ws [] (items (B fmt)) (args.map toS) = some is)
    (hok : args.all argOk = true) : Frag (sprintf fmt args) is := by
  have := sprintf_frag fmt (args.map toS) h (ok_toS hok)
  rwa [map_toS_arg] at this

/-- A fragment of plain, nameless instructions. -/
def PlainFrag (s : Bytes) : Prop := ∃ is, Frag s is ∧ is.all (fun i => plainOp i.2) = true ∧ noNames is = true

theorem plain_sprintf {fmt : String} {args : List Arg} {is : List Instr} (h : sym .ws [] (items (B fmt)) (args.map toS) = some is)
    (hok : args.all argOk = true) (hp : is.all (fun i => plainOp i.2) = true) (hn : noNames is = true) : PlainFrag (sprintf fmt args) :=
  ⟨is, frag_sprintf h hok, hp, hn⟩

theorem PlainFrag.nil : PlainFrag [] := ⟨[], Frag.nil, rfl, rfl⟩

theorem PlainFrag.append {a b : Bytes} (ha : PlainFrag a) (hb : PlainFrag b) (c : UInt8) (hc : isWs c = true) : PlainFrag (a ++ [c] ++ b) := by
  obtain ⟨i, h1, h2, h3⟩ := ha
  obtain ⟨j, h4, h5, h6⟩ := hb
  refine ⟨i ++ j, h1.append h4 c hc, ?_, ?_⟩
  · simp only [List.all_append, Bool.and_eq_true]; exact ⟨h2, h5⟩
  · simp only [noNames, List.all_append, Bool.and_eq_true] at *; exact ⟨h3, h6⟩

theorem PlainFrag.neutral {is : List Instr} (h : is.all (fun i => plainOp i.2) = true) : Neutral is :=
  neutral_of_plain (fun i hi => List.all_eq_true.mp h i hi)

/-- `s` reads as neutral instructions whose names are registered in `r`. -/
def GoodFrag (r : Regs) (s : Bytes) : Prop := ∃ is, Frag s is ∧ Neutral is ∧ ∀ i ∈ is, Resolved r i

theorem PlainFrag.good {s : Bytes} (h : PlainFrag s) (r : Regs) : GoodFrag r s := by
  obtain ⟨is, h1, h2, h3⟩ := h
  exact ⟨is, h1, PlainFrag.neutral h2, resolved_of_noNames h3 r⟩

theorem GoodFrag.append {r : Regs} {a b : Bytes} (ha : GoodFrag r a) (hb : GoodFrag r b) (c : UInt8) (hc : isWs c = true) :
    GoodFrag r (a ++ [c] ++ b) := by
  obtain ⟨i, h1, h2, h3⟩ := ha
  obtain ⟨j, h4, h5, h6⟩ := hb
  refine ⟨i ++ j, h1.append h4 c hc, h2.append h5, ?_⟩
  intro x hx
  rcases List.mem_append.mp hx with hx | hx
  · exact h3 x hx
  · exact h6 x hx

/-- A fragment of nameless instructions that leave the nesting alone. -/
def LooseFrag (s : Bytes) : Prop := ∃ is, Frag s is ∧ Loose is ∧ noNames is = true

theorem loose_sprintf {fmt : String} {args : List Arg} {is : List Instr} (h : sym .ws [] (items (B fmt)) (args.map toS) = some is)
    (hok : args.all argOk = true) (hp : is.all (fun i => looseOp i.2) = true) (hn : noNames is = true) : LooseFrag (sprintf fmt args) :=
  ⟨is, frag_sprintf h hok, hp, hn⟩

theorem LooseFrag.col {s : Bytes} (h : LooseFrag s) (r : Regs) : ColOk r s := by
  obtain ⟨is, h1, h2, h3⟩ := h
  exact ⟨is, h1, h2, resolved_of_noNames h3 r⟩

theorem EmitsL.outP {f : Fpdf} {s : Bytes} (h : LooseFrag s) : EmitsL f (f.out s) := EmitsL.out fun _ => h.col _

theorem EmitsL.outf {f : Fpdf} {fmt : String} {args : List Arg} {is : List Instr} (h : sym .ws [] (items (B fmt)) (args.map toS) = some is)
    (hok : args.all argOk = true) (hp : is.all (fun i => looseOp i.2) = true) (hn : noNames is = true) : EmitsL f (f.outf fmt args) :=
  EmitsL.outP (loose_sprintf h hok hp hn)

theorem Emits.outP {f : Fpdf} {s : Bytes} (h : PlainFrag s) : Emits f (f.out s) := Emits.out fun _ => h.good _

theorem Emits.outG {f : Fpdf} {s : Bytes} (h : Inv f → GoodFrag (regsOf f) s) : Emits f (f.out s) := Emits.out h

/-- A formatted line of plain instructions, recognised by evaluation. -/
theorem Emits.outf {f : Fpdf} {fmt : String} {args : List Arg} {is : List Instr} (h : sym .ws [] (items (B fmt)) (args.map toS) = some is)
    (hok : args.all argOk = true) (hp : is.all (fun i => plainOp i.2) = true) (hn : noNames is = true) : Emits f (f.outf fmt args) :=
  Emits.outP (plain_sprintf h hok hp hn)

theorem B_sprintf (s : String) (h : (B s).all (· ≠ 0x25) = true) : sprintf s [] = B s := by
  unfold sprintf
  generalize B s = b at h
  induction b with
  | nil => rfl
  | cons c r ih =>
    simp only [List.all_cons, Bool.and_eq_true, decide_eq_true_eq] at h
    have : sprintfB (c :: r) [] = c :: sprintfB r [] := by
      rw [sprintfB] <;> (intros; simp_all)
    rw [this, ih h.2]

/-- Evaluation closes a formatted-line goal. -/
macro "outf" : tactic => `(tactic| exact Emits.outf rfl rfl rfl rfl)

theorem Emits.andf {f g : Fpdf} {fmt : String} {args : List Arg} {is : List Instr} (h0 : Emits f g)
    (h : sym .ws [] (items (B fmt)) (args.map toS) = some is) (hok : args.all argOk = true)
    (hp : is.all (fun i => plainOp i.2) = true) (hn : noNames is = true) : Emits f (g.outf fmt args) := h0.trans (Emits.outf h hok hp hn)

theorem Emits.andIte {f g h : Fpdf} {c : Prop} [Decidable c] (h0 : Emits f g) (h1 : Emits g h) : Emits f (if c then h else g) := by
  split
  · exact h0.trans h1
  · exact h0

section
variable (f : Fpdf)

example (a b : Rat) : Emits f (f.outf "%.2f %.2f m" [.f a, .f b]) := by outf

theorem point_emits (x y : Rat) : Emits f (f.point x y) := by unfold Fpdf.point; outf
theorem curve_emits (a b c d e g : Rat) : Emits f (f.curve a b c d e g) := by unfold Fpdf.curve; outf
theorem drawLine_emits (a b c d : Rat) : Emits f (f.drawLine a b c d) := by unfold Fpdf.drawLine; outf
theorem closePath_emits : Emits f f.closePath := by unfold Fpdf.closePath; outf
theorem setWordSpacing_emits (w : Rat) : Emits f (f.setWordSpacing w) := by unfold Fpdf.setWordSpacing; outf
theorem setTextRenderingMode_emits (m : Int) : Emits f (f.setTextRenderingMode m) := by
  unfold Fpdf.setTextRenderingMode
  exact Emits.ite (fun _ => by outf) (fun _ => Emits.refl f)

theorem moveTo_emits (x y : Rat) : Emits f (f.moveTo x y) := (point_emits f x y).trans (Emits.upd rfl rfl id)
theorem lineTo_emits (x y : Rat) : Emits f (f.lineTo x y) := by
  unfold Fpdf.lineTo
  exact Emits.trans (g := f.outf "%.2f %.2f l" [.f (x * f.k), .f ((f.p.h - y) * f.k)]) (by outf) (Emits.upd rfl rfl id)
theorem curveTo_emits (a b x y : Rat) : Emits f (f.curveTo a b x y) := by
  unfold Fpdf.curveTo
  exact Emits.trans (g := f.outf "%.5f %.5f %.5f %.5f v" [.f (a * f.k), .f ((f.p.h - b) * f.k), .f (x * f.k), .f ((f.p.h - y) * f.k)])
    (by outf) (Emits.upd rfl rfl id)
theorem curveBezierCubicTo_emits (a b c d x y : Rat) : Emits f (f.curveBezierCubicTo a b c d x y) :=
  (curve_emits f a b c d x y).trans (Emits.upd rfl rfl id)

/-! Line styles -/

theorem setLineWidth_emits (w : Rat) : EmitsL f (f.setLineWidth w) := by
  unfold Fpdf.setLineWidth
  refine EmitsL.trans (g := { f with line.width := w }) (EmitsL.upd rfl rfl id) ?_
  exact EmitsL.ite (fun _ => EmitsL.outf rfl rfl rfl rfl) (fun _ => EmitsL.refl _)
theorem setLineCapStyle_emits (s : Bytes) : Emits f (f.setLineCapStyle s) := by
  unfold Fpdf.setLineCapStyle
  refine Emits.trans (g := { f with line.cap := if s = B "round" then 1 else if s = B "square" then 2 else 0 }) (Emits.upd rfl rfl id) ?_
  exact Emits.ite (fun _ => by outf) (fun _ => Emits.refl _)
theorem setLineJoinStyle_emits (s : Bytes) : Emits f (f.setLineJoinStyle s) := by
  unfold Fpdf.setLineJoinStyle
  refine Emits.trans (g := { f with line.join := if s = B "round" then 1 else if s = B "bevel" then 2 else 0 }) (Emits.upd rfl rfl id) ?_
  exact Emits.ite (fun _ => by outf) (fun _ => Emits.refl _)


open Fpdf (dashNums)

theorem dash_lex (l : List Rat) : ∃ ts, lexFrom .ws (dashNums l ++ [0x5D]) = (.ws, ts ++ [.punct 0x5D]) ∧
    ∀ acc, instrsFrom acc (ts ++ [.punct 0x5D]) = (acc ++ (ts ++ [.punct 0x5D]), []) ∧ ∀ t ∈ ts, ∃ w, t = .word w := by
  fun_induction dashNums l with
  | case1 => exact ⟨[], by decide, fun acc => by simp [instrsFrom]⟩
  | case2 a =>
    refine ⟨[.word (fmtF 2 a)], ?_, fun acc => ?_⟩
    · exact lex_word_bracket _ (fmtF_ne_nil 2 a) (fmtF_regular 2 a) 0x5D (by simp)
    · simp [instrsFrom, fmtF_isNum]
  | case3 a r hr ih =>
    obtain ⟨ts, h1, h2⟩ := ih
    refine ⟨.word (fmtF 2 a) :: ts, ?_, fun acc => ?_⟩
    · have : fmtF 2 a ++ B " " ++ dashNums r ++ [0x5D] = (fmtF 2 a ++ [32]) ++ (dashNums r ++ [0x5D]) := by
        simp [show B " " = [32] from rfl]
      rw [this, lexFrom_append, lex_word_end _ (fmtF_ne_nil 2 a) (fmtF_regular 2 a) 32 (by decide)]
      simp [h1]
    · have := (h2 (acc ++ [.word (fmtF 2 a)])).1
      refine ⟨?_, ?_⟩
      · simp only [List.cons_append, instrsFrom, fmtF_isNum, if_true]
        rw [this]; simp
      · intro t ht
        rcases List.mem_cons.mp ht with rfl | ht
        · exact ⟨_, rfl⟩
        · exact (h2 []).2 t ht

theorem dash_plain (l : List Rat) (ph : Rat) : PlainFrag (B "[" ++ dashNums l ++ B "] " ++ fmtF 2 ph ++ B " d") := by
  obtain ⟨ts, h1, h2⟩ := dash_lex l
  refine ⟨[(.punct 0x5B :: ts ++ [.punct 0x5D, .word (fmtF 2 ph)], B "d")], ?_, rfl, ?_⟩
  · intro c hc
    have e : B "[" ++ dashNums l ++ B "] " ++ fmtF 2 ph ++ B " d" ++ [c]
        = [0x5B] ++ ((dashNums l ++ [0x5D]) ++ ([32] ++ ((fmtF 2 ph ++ [32]) ++ ([0x64] ++ [c])))) := by
      simp [show B "[" = [0x5B] from rfl, show B "] " = [0x5D, 32] from rfl, show B " d" = [32, 0x64] from rfl]
    refine ⟨[.punct 0x5B] ++ ((ts ++ [.punct 0x5D]) ++ ([] ++ ([.word (fmtF 2 ph)] ++ [.word [0x64]]))), ?_, ?_⟩
    · rw [e, lexFrom_append]
      have : lexFrom .ws [0x5B] = (.ws, [.punct 0x5B]) := by decide
      rw [this, lexFrom_append, h1, lexFrom_append]
      have : lexFrom .ws [32] = (.ws, []) := by decide
      rw [this, lexFrom_append, lex_word_end _ (fmtF_ne_nil 2 ph) (fmtF_regular 2 ph) 32 (by decide)]
      rw [lex_word_end [0x64] (by simp) (by decide) c hc]
    · have h3 := (h2 [.punct 0x5B]).1
      have : instrsFrom [] ([Tok.punct 0x5B] ++ ((ts ++ [.punct 0x5D]) ++ ([] ++ ([.word (fmtF 2 ph)] ++ [.word [0x64]]))))
          = instrsFrom [.punct 0x5B] ((ts ++ [.punct 0x5D]) ++ ([.word (fmtF 2 ph)] ++ [.word [0x64]])) := by simp [instrsFrom]
      rw [this, instrsFrom_append, h3]
      have hd : isNumWord [0x64] = false := by decide
      simp [instrsFrom, fmtF_isNum, hd]
      rfl
  · simp only [noNames, List.all_cons, List.all_nil, Bool.and_true, Instr.names, List.isEmpty_iff, List.filterMap_eq_nil_iff]
    intro a ha
    simp only [List.cons_append, List.mem_cons, List.mem_append, List.not_mem_nil, or_false] at ha
    rcases ha with rfl | ha | rfl | rfl
    · rfl
    · obtain ⟨w, rfl⟩ := (h2 []).2 a ha; rfl
    · rfl
    · rfl

theorem outputDashPattern_emits : Emits f f.outputDashPattern := Emits.outP (dash_plain _ _)

theorem setDashPattern_emits (a : List Rat) (ph : Rat) : Emits f (f.setDashPattern a ph) := by
  unfold Fpdf.setDashPattern
  refine Emits.trans (g := { f with line.dashArray := a.map (· * f.k), line.dashPhase := ph * f.k }) (Emits.upd rfl rfl id) ?_
  exact Emits.ite (fun _ => outputDashPattern_emits _) (fun _ => Emits.refl _)

/-! Painting operators -/

/-- The path-painting operators of PDF (table 60). -/
def paintOps : List Bytes := [B "S", B "s", B "f", B "F", B "f*", B "B", B "B*", B "b", B "b*", B "n"]

theorem paint_cases {op : Bytes} {P : Bytes → Prop} (h : op ∈ paintOps) (h1 : ∀ o ∈ paintOps, P o) : P op := h1 op h

theorem rect_emits {style : Bytes} (hs : fillDrawOp style ∈ paintOps) (x y w h : Rat) : Emits f (f.rect x y w h style) := by
  unfold Fpdf.rect
  generalize fillDrawOp style = op at hs ⊢
  simp only [paintOps, List.mem_cons, List.not_mem_nil, or_false] at hs
  rcases hs with rfl | rfl | rfl | rfl | rfl | rfl | rfl | rfl | rfl | rfl <;> outf

theorem paint_plain {op : Bytes} (hs : op ∈ paintOps) : PlainFrag op := by
  have h : ∀ o ∈ paintOps, o ≠ [] ∧ (∀ c ∈ o, isRegular c = true) ∧ isNumWord o = false ∧ plainOp o = true := by decide +kernel
  obtain ⟨h1, h2, h3, h4⟩ := h op hs
  refine ⟨[([], op)], fun c hc => ⟨_, lex_word_end op h1 h2 c hc, by simp [instrsFrom, h3]⟩, by simp [h4], rfl⟩

theorem drawPath_emits {style : Bytes} (hs : fillDrawOp style ∈ paintOps) : Emits f (f.drawPath style) := by
  unfold Fpdf.drawPath
  generalize fillDrawOp style = op at hs ⊢
  have : ∀ o ∈ paintOps, sprintfB o [] = o := by decide +kernel
  rw [this op hs]
  exact Emits.outP (paint_plain hs)

theorem polygon_emits {style : Bytes} (hs : fillDrawOp style ∈ paintOps) (pts : List (Rat × Rat)) : Emits f (f.polygon pts style) := by
  unfold Fpdf.polygon
  split
  · refine Emits.ite (fun _ => ?_) (fun _ => Emits.refl f)
    dsimp only
    refine Emits.trans ?_ (drawPath_emits _ hs)
    refine Emits.andf ?_ rfl rfl rfl rfl
    refine Emits.trans (point_emits f _ _) (Emits.foldl _ (fun f a => ?_) _ _)
    outf
  · exact Emits.refl f

theorem beziergonLoop_emits (pts : List (Rat × Rat)) : Emits f (f.beziergonLoop pts) := by
  induction f, pts using Fpdf.beziergonLoop.induct with
  | case1 f a b c r ih => rw [Fpdf.beziergonLoop]; exact (curve_emits f _ _ _ _ _ _).trans ih
  | case2 l f h =>
    rw [Fpdf.beziergonLoop]
    · exact Emits.refl f
    · exact h

theorem beziergon_emits {style : Bytes} (hs : fillDrawOp style ∈ paintOps) (pts : List (Rat × Rat)) : Emits f (f.beziergon pts style) := by
  unfold Fpdf.beziergon
  split
  · exact Emits.ite (fun _ => Emits.refl f)
      (fun _ => ((point_emits f _ _).trans (beziergonLoop_emits _ _)).trans (drawPath_emits _ hs))
  · exact Emits.refl f

theorem curveQuad_emits {style : Bytes} (hs : fillDrawOp style ∈ paintOps) (a b c d e g : Rat) : Emits f (f.curveQuad a b c d e g style) := by
  unfold Fpdf.curveQuad
  refine (point_emits f a b).trans ?_
  generalize fillDrawOp style = op at hs ⊢
  simp only [paintOps, List.mem_cons, List.not_mem_nil, or_false] at hs
  rcases hs with rfl | rfl | rfl | rfl | rfl | rfl | rfl | rfl | rfl | rfl <;> outf

theorem curveBezierCubic_emits {style : Bytes} (hs : fillDrawOp style ∈ paintOps) (a b c d e g i j : Rat) :
    Emits f (f.curveBezierCubic a b c d e g i j style) := by
  unfold Fpdf.curveBezierCubic
  refine (point_emits f a b).trans ?_
  generalize fillDrawOp style = op at hs ⊢
  simp only [paintOps, List.mem_cons, List.not_mem_nil, or_false] at hs
  rcases hs with rfl | rfl | rfl | rfl | rfl | rfl | rfl | rfl | rfl | rfl <;> outf

end
end Verif.Proof
