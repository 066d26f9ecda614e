import Verif.Props.Attrs
import Verif.Props.Geometry
import Verif.Props.Placement
/-
C70: line cap style, line join style and dash pattern.
-/
namespace Verif.Props
open Verif Verif.Model Verif.Spec Verif.Proof

/-- The line cap styles of `SetLineCapStyle`: "butt", "round" or "square" as documented, and the numbers by which PDF knows them (ISO 32000-1, 8.4.3.3). Anything else stands for "butt". -/
def capNumber (s : Bytes) : Rat := if s = B "round" then 1 else if s = B "square" then 2 else 0

/-- The line join styles of `SetLineJoinStyle`: "miter", "round" or "bevel", and their numbers (8.4.3.4). Anything else stands for "miter". -/
def joinNumber (s : Bytes) : Rat := if s = B "round" then 1 else if s = B "bevel" then 2 else 0

/-- The instructions that select a cap style, a join style, a dash pattern (8.4.3.6). -/
def capInstr (s : Bytes) : List Want × String := ([.num 0 (capNumber s)], "J")
@[inherit_doc capInstr] def joinInstr (s : Bytes) : List Want × String := ([.num 0 (joinNumber s)], "j")
@[inherit_doc capInstr] def dashInstr (f : Fpdf) (a : List Rat) (ph : Rat) : List Want × String :=
  ([.punct 0x5B] ++ a.map (fun v => .num 2 (px f v)) ++ [.punct 0x5D, .num 2 (px f ph)], "d")

theorem cap_frag (z : Int) (h : z = 0 ∨ z = 1 ∨ z = 2) : Frag (sprintf "%d J" [.d z]) (written [([.num 0 z], "J")]) ∧ Frag (sprintf "%d j" [.d z]) (written [([.num 0 z], "j")]) := by
  rcases h with rfl | rfl | rfl
  · have e : fmtF 0 ((0 : Int) : Rat) = intDec 0 := by decide +kernel
    simp only [written, List.map_cons, List.map_nil, Want.tok, e]
    exact ⟨frag_sprintf rfl rfl, frag_sprintf rfl rfl⟩
  · have e : fmtF 0 ((1 : Int) : Rat) = intDec 1 := by decide +kernel
    simp only [written, List.map_cons, List.map_nil, Want.tok, e]
    exact ⟨frag_sprintf rfl rfl, frag_sprintf rfl rfl⟩
  · have e : fmtF 0 ((2 : Int) : Rat) = intDec 2 := by decide +kernel
    simp only [written, List.map_cons, List.map_nil, Want.tok, e]
    exact ⟨frag_sprintf rfl rfl, frag_sprintf rfl rfl⟩

open Fpdf (dashNums)

theorem dash_words (l : List Rat) : lexFrom .ws (dashNums l ++ [0x5D]) = (.ws, l.map (fun a => Tok.word (fmtF 2 a)) ++ [.punct 0x5D]) ∧
    ∀ acc, instrsFrom acc (l.map (fun a => Tok.word (fmtF 2 a)) ++ [.punct 0x5D]) = (acc ++ (l.map (fun a => Tok.word (fmtF 2 a)) ++ [.punct 0x5D]), []) := by
  fun_induction dashNums l with
  | case1 => exact ⟨by decide, fun acc => by simp [instrsFrom]⟩
  | case2 a =>
    refine ⟨?_, fun acc => ?_⟩
    · exact lex_word_bracket _ (fmtF_ne_nil 2 a) (fmtF_regular 2 a) 0x5D (by simp)
    · simp [instrsFrom, fmtF_isNum]
  | case3 a r hr ih =>
    obtain ⟨h1, h2⟩ := ih
    refine ⟨?_, fun acc => ?_⟩
    · have : fmtF 2 a ++ B " " ++ dashNums r ++ [0x5D] = (fmtF 2 a ++ [32]) ++ (dashNums r ++ [0x5D]) := by
        simp [show B " " = [32] from rfl]
      rw [this, lexFrom_append, lex_word_end _ (fmtF_ne_nil 2 a) (fmtF_regular 2 a) 32 (by decide)]
      simp [h1]
    · have := h2 (acc ++ [.word (fmtF 2 a)])
      simp only [List.map_cons, List.cons_append, instrsFrom, fmtF_isNum, if_true]
      rw [this]; simp

theorem dash_frag (l : List Rat) (ph : Rat) : Frag (B "[" ++ dashNums l ++ B "] " ++ fmtF 2 ph ++ B " d")
    (written [([.punct 0x5B] ++ l.map (fun v => .num 2 v) ++ [.punct 0x5D, .num 2 ph], "d")]) := by
  obtain ⟨h1, h2⟩ := dash_words l
  have ew : written [([.punct 0x5B] ++ l.map (fun v => .num 2 v) ++ [.punct 0x5D, .num 2 ph], "d")] =
      [(.punct 0x5B :: l.map (fun a => Tok.word (fmtF 2 a)) ++ [.punct 0x5D, .word (fmtF 2 ph)], B "d")] := by
    simp [written, Want.tok, Function.comp_def]
  rw [ew]
  generalize l.map (fun a => Tok.word (fmtF 2 a)) = ts at h1 h2 ⊢
  intro c hc
  have e : B "[" ++ dashNums l ++ B "] " ++ fmtF 2 ph ++ B " d" ++ [c]
      = [0x5B] ++ ((dashNums l ++ [0x5D]) ++ ([32] ++ ((fmtF 2 ph ++ [32]) ++ ([0x64] ++ [c])))) := by
    simp [show B "[" = [0x5B] from rfl, show B "] " = [0x5D, 32] from rfl, show B " d" = [32, 0x64] from rfl]
  refine ⟨[.punct 0x5B] ++ ((ts ++ [.punct 0x5D]) ++ ([] ++ ([.word (fmtF 2 ph)] ++ [.word [0x64]]))), ?_, ?_⟩
  · rw [e, lexFrom_append]
    have : lexFrom .ws [0x5B] = (.ws, [.punct 0x5B]) := by decide
    rw [this, lexFrom_append, h1, lexFrom_append]
    have : lexFrom .ws [32] = (.ws, []) := by decide
    rw [this, lexFrom_append, lex_word_end _ (fmtF_ne_nil 2 ph) (fmtF_regular 2 ph) 32 (by decide)]
    rw [lex_word_end [0x64] (by simp) (by decide) c hc]
  · have h3 := h2 [.punct 0x5B]
    have : instrsFrom [] ([Tok.punct 0x5B] ++ ((ts ++ [.punct 0x5D]) ++ ([] ++ ([.word (fmtF 2 ph)] ++ [.word [0x64]]))))
        = instrsFrom [.punct 0x5B] ((ts ++ [.punct 0x5D]) ++ ([.word (fmtF 2 ph)] ++ [.word [0x64]])) := by simp [instrsFrom]
    rw [this, instrsFrom_append, h3]
    have hd : isNumWord [0x64] = false := by decide
    simp [instrsFrom, fmtF_isNum, hd]
    rfl

/-- The numbers of the styles remembered. -/
def capOf (s : Bytes) : Nat := if s = B "round" then 1 else if s = B "square" then 2 else 0
@[inherit_doc capOf] def joinOf (s : Bytes) : Nat := if s = B "round" then 1 else if s = B "bevel" then 2 else 0

theorem capOf_num (s : Bytes) : ((capOf s : Int) : Rat) = capNumber s ∧ ((capOf s : Int) = 0 ∨ (capOf s : Int) = 1 ∨ (capOf s : Int) = 2) := by
  unfold capOf capNumber
  split
  · exact ⟨by norm_num, .inr (.inl rfl)⟩
  · split
    · exact ⟨by norm_num, .inr (.inr rfl)⟩
    · exact ⟨by norm_num, .inl rfl⟩
theorem joinOf_num (s : Bytes) : ((joinOf s : Int) : Rat) = joinNumber s ∧ ((joinOf s : Int) = 0 ∨ (joinOf s : Int) = 1 ∨ (joinOf s : Int) = 2) := by
  unfold joinOf joinNumber
  split
  · exact ⟨by norm_num, .inr (.inl rfl)⟩
  · split
    · exact ⟨by norm_num, .inr (.inr rfl)⟩
    · exact ⟨by norm_num, .inl rfl⟩

theorem wrote_cap (g : Fpdf) (hs : g.state = 2) (s : Bytes) (h : g.line.cap = capOf s) : Wrote g (g.outf "%d J" [.d g.line.cap]) [capInstr s] := by
  rw [h]
  unfold capInstr
  rw [← (capOf_num s).1]
  exact Wrote.put hs (cap_frag _ (capOf_num s).2).1
theorem wrote_join (g : Fpdf) (hs : g.state = 2) (s : Bytes) (h : g.line.join = joinOf s) : Wrote g (g.outf "%d j" [.d g.line.join]) [joinInstr s] := by
  rw [h]
  unfold joinInstr
  rw [← (joinOf_num s).1]
  exact Wrote.put hs (cap_frag _ (joinOf_num s).2).2
theorem wrote_dash (g : Fpdf) (hs : g.state = 2) (a : List Rat) (ph : Rat) (h1 : g.line.dashArray = a.map (· * g.k)) (h2 : g.line.dashPhase = ph * g.k) :
    Wrote g g.outputDashPattern [dashInstr g a ph] := by
  unfold Fpdf.outputDashPattern dashInstr
  rw [h1, h2]
  refine Wrote.put hs ?_
  have := dash_frag (a.map (· * g.k)) (ph * g.k)
  rw [List.map_map] at this
  exact this

section
variable (E : Ext) (cb : Cb) (f : Fpdf) (hs : f.state = 2) (hp : f.page ≠ 0)
include hs hp

/-- **C70** On a page, `SetLineCapStyle`, `SetLineJoinStyle` and `SetDashPattern` select the style at once. -/
theorem C70_set (s : Bytes) (a : List Rat) (ph : Rat) : Writes f (f.exec E cb (.setLineCapStyle s)) [capInstr s] ∧ Writes f (f.exec E cb (.setLineJoinStyle s)) [joinInstr s] ∧
    Writes f (f.exec E cb (.setDashPattern a ph)) [dashInstr f a ph] := by
  refine ⟨Wrote.writes ?_, Wrote.writes ?_, Wrote.writes ?_⟩
  · show Wrote f (f.setLineCapStyle s) _
    have e : f.setLineCapStyle s = ({ f with line.cap := capOf s } : Fpdf).outf "%d J" [.d (({ f with line.cap := capOf s } : Fpdf).line.cap)] := if_pos (Nat.pos_of_ne_zero hp)
    rw [e]
    have h1 : Wrote f { f with line.cap := capOf s } [] := Wrote.upd rfl rfl rfl rfl rfl
    exact Wrote.trans (b := [capInstr s]) h1 (wrote_cap { f with line.cap := capOf s } hs s rfl)
  · show Wrote f (f.setLineJoinStyle s) _
    have e : f.setLineJoinStyle s = ({ f with line.join := joinOf s } : Fpdf).outf "%d j" [.d (({ f with line.join := joinOf s } : Fpdf).line.join)] := if_pos (Nat.pos_of_ne_zero hp)
    rw [e]
    have h1 : Wrote f { f with line.join := joinOf s } [] := Wrote.upd rfl rfl rfl rfl rfl
    exact Wrote.trans (b := [joinInstr s]) h1 (wrote_join { f with line.join := joinOf s } hs s rfl)
  · show Wrote f (f.setDashPattern a ph) _
    unfold Fpdf.setDashPattern
    dsimp only
    rw [if_pos (Nat.pos_of_ne_zero hp)]
    have h1 : Wrote f { f with line.dashArray := a.map (· * f.k), line.dashPhase := ph * f.k } [] := Wrote.upd rfl rfl rfl rfl rfl
    exact Wrote.trans (b := [dashInstr f a ph]) h1 (wrote_dash { f with line.dashArray := a.map (· * f.k), line.dashPhase := ph * f.k } hs a ph rfl rfl)

end

/-- Calls that set one of the styles. -/
def setsCap : Op → Bool | .setLineCapStyle .. => true | _ => false
@[inherit_doc setsCap] def setsJoin : Op → Bool | .setLineJoinStyle .. => true | _ => false
@[inherit_doc setsCap] def setsDash : Op → Bool | .setDashPattern .. => true | _ => false

/-! ### Kept over a history -/

/-- A part of the line settings other than the width. -/
theorem addPage_part {E : Ext} {cb : Cb} {α : Type} (q : LineSt → α) (hw : ∀ l w, q { l with width := w } = q l) (K : LensRel E cb (fun f g => q g.line = q f.line)) (f : Fpdf) (o : Bytes) (sz : Size) :
    q (f.addPageFormat E cb o sz).line = q f.line := by
  by_cases he : f.err = none
  · rw [addPageFormat_eq]
    have hb : q ((f.leavePage cb).beginpage o sz).line = q f.line := by
      by_cases hle : (f.leavePage cb).err = none
      · rw [line_eq ((beginpage_lens _ o sz hle).trans (show lens { f.leavePage cb with t.fontFamily := [] } = lens { f.leavePage cb with t.fontFamily := [] } from rfl))]
        exact K.leavePage f
      · rw [beginpage_of_err _ o sz hle]
        exact K.leavePage f
    have h1 : q (front E cb f o sz).line = q f.line := by
      unfold front
      rw [restoreFont_line, line_eq (pageLines_lens _ _)]
      exact (hw _ _).trans hb
    have h2 : ∀ g : Fpdf, q (back E cb g f.save).line = q g.line := by
      intro g
      unfold back
      rw [restoreFont_line, line_eq (restoreLine_lens _ _)]
      refine (hw _ _).trans ((K.runHeader _).trans ?_)
      rw [line_eq (pageColors_lens _ _)]
    split
    · rfl
    split
    · exact h1
    split
    · exact (h2 _).trans h1
    · rw [line_eq (restoreColors_lens _ _)]
      exact (h2 _).trans h1
  · rw [addPageFormat_of_err E cb f o sz he]

theorem line_part_kept {E : Ext} {α : Type} (q : LineSt → α) (hw : ∀ l w, q { l with width := w } = q l) (bad : Op → Bool)
    (hq : ∀ cb (f : Fpdf) op, staysOnPage op = true → bad op = false → q (f.exec E cb op).line = q f.line) (hh : ∀ op, helper op = true → bad op = false)
    {f g : Fpdf} (h : Reach E (without bad) f g) : q g.line = q f.line := by
  refine Reach.rel (G := without bad) (fun f g => q g.line = q f.line) (fun _ => rfl) (fun _ _ _ a b => b.trans a) (fun f op cb hop hcb => ?_) h
  have K : LensRel E cb (fun f g => q g.line = q f.line) := ⟨fun _ _ _ a b => b.trans a, fun f g h => by rw [line_eq h], hcb⟩
  rcases op_cases op with hs | hf | rfl | ⟨o, sz, rfl⟩ | ⟨n, rfl⟩ | rfl | ⟨b, rfl⟩ | rfl
  · exact hq cb f op hs hop.2.2
  · have KF : FlowRel E cb (fun f g => q g.line = q f.line) :=
      { refl := K.refl, trans := K.trans, step := fun f g h => K.same _ _ (lens_core h.core), accept := K.cbs.accept, page := addPage_part q hw K
        img := fun f g info a b c d h _ => K.trans _ _ _ h (K.same _ _ (lens_out _ _)), own := fun f op h => hq cb f op (helper_stays h) (hh op h) }
    exact exec_flow KF f op hf
  · show q (f.addPage E cb).line = _
    unfold Fpdf.addPage
    split
    · rfl
    · exact addPage_part q hw K _ _ _
  · exact addPage_part q hw K f o sz
  · exact K.same _ _ (setPage_lens f n)
  · exact absurd rfl hop.1
  · exact absurd rfl (hop.2.1 b)
  · rfl

theorem cap_kept {E : Ext} {f g : Fpdf} (h : Reach E (without setsCap) f g) : g.line.cap = f.line.cap :=
  line_part_kept (fun l => l.cap) (fun _ _ => rfl) setsCap (fun cb f op hs hb => foot_get (fun f => f.line.cap) E cb f op hs (fun g => by cases op <;> first | rfl | exact Bool.noConfusion hb))
    (fun op h => by cases op <;> first | rfl | simp [helper] at h) h
theorem join_kept {E : Ext} {f g : Fpdf} (h : Reach E (without setsJoin) f g) : g.line.join = f.line.join :=
  line_part_kept (fun l => l.join) (fun _ _ => rfl) setsJoin (fun cb f op hs hb => foot_get (fun f => f.line.join) E cb f op hs (fun g => by cases op <;> first | rfl | exact Bool.noConfusion hb))
    (fun op h => by cases op <;> first | rfl | simp [helper] at h) h
theorem dash_kept {E : Ext} {f g : Fpdf} (h : Reach E (without setsDash) f g) : (g.line.dashArray, g.line.dashPhase) = (f.line.dashArray, f.line.dashPhase) :=
  line_part_kept (fun l => (l.dashArray, l.dashPhase)) (fun _ _ => rfl) setsDash (fun cb f op hs hb => foot_get (fun f => (f.line.dashArray, f.line.dashPhase)) E cb f op hs (fun g => by cases op <;> first | rfl | exact Bool.noConfusion hb))
    (fun op h => by cases op <;> first | rfl | simp [helper] at h) h

/-! ### At the start of a page -/

/-- What a page begins with. -/
def lineInstrs (F : Fpdf) (c j : Bytes) (w : Rat) (a : List Rat) (ph : Rat) : List (List Want × String) :=
  [capInstr c, joinInstr j, ([.num 2 (px F w)], "w")] ++ if a = [] then [] else [dashInstr F a ph]

theorem wrote_pageLines (g : Fpdf) (hs : g.state = 2) (lw : Rat) (c j : Bytes) (a : List Rat) (ph : Rat) (h1 : g.line.cap = capOf c) (h2 : g.line.join = joinOf j)
    (h3 : g.line.dashArray = a.map (· * g.k)) (h4 : g.line.dashPhase = ph * g.k) : Wrote g (g.pageLines lw) (lineInstrs g c j lw a ph) := by
  have k1 := wrote_cap g hs c h1
  have e1 := out_ink g (sprintf "%d J" [.d g.line.cap])
  have hl1 : (g.outf "%d J" [.d g.line.cap]).line = g.line := line_eq (lens_out _ _)
  have k2 := wrote_join (g.outf "%d J" [.d g.line.cap]) (k1.state.trans hs) j (by rw [hl1]; exact h2)
  unfold Fpdf.pageLines
  dsimp only
  have k12 := k1.trans k2
  generalize hg2 : Fpdf.outf (Fpdf.outf g _ _) _ _ = g2 at k12 ⊢
  have hl2 : g2.line = g.line := by
    rw [← hg2]
    exact (line_eq (lens_out _ _)).trans hl1
  have k3 : Wrote g2 { g2 with line.width := lw } [] := Wrote.upd rfl rfl rfl rfl rfl
  have k4 : Wrote { g2 with line.width := lw } (({ g2 with line.width := lw } : Fpdf).outf "%.2f w" [.f (lw * g2.k)]) [([.num 2 (lw * g2.k)], "w")] :=
    Wrote.put (k12.state.trans hs) (by simp only [written, List.map_cons, List.map_nil, Want.tok]; exact frag_sprintf rfl rfl)
  have k5 := (k12.trans k3).trans k4
  generalize hg3 : Fpdf.outf ({ g2 with line.width := lw } : Fpdf) _ _ = g3 at k5 ⊢
  have hl3 : g3.line = { g.line with width := lw } := by
    rw [← hg3]
    refine (line_eq (lens_out _ _)).trans ?_
    show { g2.line with width := lw } = _
    rw [hl2]
  have hkk : g3.k = g.k := k5.k
  have hk2 : g2.k = g.k := k12.k
  have e5 : [capInstr c] ++ [joinInstr j] ++ [] ++ [(([.num 2 (lw * g2.k)] : List Want), "w")] = [capInstr c, joinInstr j, ([.num 2 (px g lw)], "w")] := by
    rw [hk2]; rfl
  rw [e5] at k5
  have hda : g3.line.dashArray = a.map (· * g.k) := by rw [hl3]; exact h3
  unfold lineInstrs
  by_cases ha : a = []
  · rw [if_neg (by rw [hda, ha]; simp), if_pos ha, List.append_nil]
    exact k5
  · rw [if_pos (by rw [hda, List.length_map]; exact List.length_pos_of_ne_nil ha), if_neg ha]
    have k6 := wrote_dash g3 (k5.state.trans hs) a ph (by rw [hda, hkk]) (by rw [hl3, hkk]; exact h4)
    have e6 : dashInstr g3 a ph = dashInstr g a ph := by
      unfold dashInstr
      simp only [k5.px]
    rw [e6] at k6
    exact k5.trans k6

/-- Calls that set any of the three. -/
def setsLine (op : Op) : Bool := setsCap op || setsJoin op || setsDash op

theorem Reach.lines {E : Ext} {f g : Fpdf} (h : Reach E (without setsLine) f g) : Reach E (without setsCap) f g ∧ Reach E (without setsJoin) f g ∧ Reach E (without setsDash) f g := by
  have m : ∀ bad : Op → Bool, (∀ op, setsLine op = false → bad op = false) → Reach E (without bad) f g := fun bad hb =>
    Reach.mono (G := without setsLine) (H := without bad) (fun _ _ op h => (⟨h.1, h.2.1, hb op h.2.2⟩ : op ≠ .close ∧ (∀ b, op ≠ .output b) ∧ bad op = false)) (fun _ h => h) h
  refine ⟨m _ fun op h => ?_, m _ fun op h => ?_, m _ fun op h => ?_⟩ <;>
  · simp only [setsLine, Bool.or_eq_false_iff] at h
    tauto

/-- **C70** A page begins with the line styles in effect. Let `c`, `j` and `a`, `ph` be the arguments of the last `SetLineCapStyle`, `SetLineJoinStyle` and `SetDashPattern` before a page is added
(with callbacks that add no pages, the footer not setting these). Then what the content stream of this page says first is: this cap style, this join style, the current line width, and this dash pattern
(if it has dashes); and this remains so to the end. -/
theorem C70_page (E : Ext) (o u s : Bytes) (sz : Size) (hnew : (Fpdf.new o u s sz).err = none) (fc fj fd f0 f : Fpdf) (cbc cbj cbd cb : Cb) (c j : Bytes) (a : List Rat) (ph : Rat) (or : Bytes) (psz : Size)
    (hd : Reach E inOrder (Fpdf.new o u s sz) fd) (h0 : Reach E inOrder (Fpdf.new o u s sz) f0)
    (hcap : Reach E (without setsCap) (fc.exec E cbc (.setLineCapStyle c)) f0) (hjoin : Reach E (without setsJoin) (fj.exec E cbj (.setLineJoinStyle j)) f0)
    (hdash : Reach E (without setsDash) (fd.exec E cbd (.setDashPattern a ph)) f0)
    (hcb : CbReach E inOrder cb) (hplain : NoPages cb) (hfoot : ∀ h, cb.footer = some h → ∀ b s, Reach E (without setsLine) s (h b s))
    (hadd : (f0.exec E cb (.addPageFormat or psz)).pageCount = f0.pageCount + 1)
    (hf : Reach E inOrder (f0.exec E cb (.addPageFormat or psz)) f) :
    ∃ p rest, f.pages[f0.pageCount + 1]? = some (p ++ rest) ∧ Understood p (lineInstrs (Fpdf.new o u s sz) c j f0.getLineWidth a ph) := by
  obtain ⟨hc, hk, -, hkk, -⟩ := reach_cons hnew h0
  obtain ⟨-, -, -, hkd, -⟩ := reach_cons hnew hd
  have he : f0.err = none := by
    by_contra he
    rw [show f0.exec E cb (.addPageFormat or psz) = f0 from addPageFormat_of_err E cb f0 or psz he] at hadd
    omega
  have K := GSized.onPage (E := E) (hcb.rel (fun _ _ h => reach_gsized h))
  have hl := K.leavePage f0
  have hlc := (hl.2 hc).cons
  have hll := leavePage_len hplain f0
  have hlen0 : (f0.addPageFormat E cb or psz).pages.length = ((f0.leavePage cb).beginpage or psz).pages.length :=
    tail_of (E := E) (cb := cb) (R := fun a b => b.pages.length = a.pages.length) (fun _ _ _ a b => b.trans a) (fun _ _ h => frm_len h)
      (fun g _ => runHeader_len hplain g) f0 or psz he (K.turnRel.turn f0 or psz he).2
  have hle : (f0.leavePage cb).err = none := by
    by_contra hle
    rw [beginpage_of_err _ or psz hle, hll] at hlen0
    have := hc.last
    unfold Fpdf.pageCount at hadd
    have e : (f0.exec E cb (.addPageFormat or psz)).pages.length = (f0.addPageFormat E cb or psz).pages.length := rfl
    omega
  obtain ⟨b1, b2, -, -, b5, b6⟩ := beginpage_page (f0.leavePage cb) or psz hle
  have hn : (f0.leavePage cb).page + 1 = f0.pageCount + 1 := by
    have h1 := hlc.last
    have h2 := hc.last
    unfold Fpdf.pageCount
    omega
  -- the settings at the start of the page
  have bl : ((f0.leavePage cb).beginpage or psz).line = (f0.leavePage cb).line ∧ ((f0.leavePage cb).beginpage or psz).k = (f0.leavePage cb).k := by
    have := beginpage_lens (f0.leavePage cb) or psz hle
    exact ⟨(lens_parts this).2.2.1, (lens_parts this).2.2.2⟩
  have hlk : (f0.leavePage cb).k = f0.k := (hl.2 hc).k
  have leave : ∀ {α : Type} (q : LineSt → α), (∀ g g' : Fpdf, Reach E (without setsLine) g g' → q g'.line = q g.line) → q (f0.leavePage cb).line = q f0.line := by
    intro α q hq
    have KL : LensRel E { footer := cb.footer } (fun f g => q g.line = q f.line) :=
      ⟨fun _ _ _ a b => b.trans a, fun f g h => by rw [line_eq h], fun _ h => (by simp at h), fun h hh b s _ => hq _ _ (hfoot h hh b s), fun _ => rfl⟩
    exact KL.leavePage f0
  have l1 : ((f0.leavePage cb).beginpage or psz).line.cap = capOf c := by
    rw [bl.1, leave (fun l => l.cap) (fun _ _ h => cap_kept (Reach.lines h).1), cap_kept hcap]
    show (fc.setLineCapStyle c).line.cap = _
    unfold Fpdf.setLineCapStyle
    dsimp only
    split
    · exact congrArg (fun l : LineSt => l.cap) (line_eq (lens_out _ _))
    · rfl
  have l2 : ((f0.leavePage cb).beginpage or psz).line.join = joinOf j := by
    rw [bl.1, leave (fun l => l.join) (fun _ _ h => join_kept (Reach.lines h).2.1), join_kept hjoin]
    show (fj.setLineJoinStyle j).line.join = _
    unfold Fpdf.setLineJoinStyle
    dsimp only
    split
    · exact congrArg (fun l : LineSt => l.join) (line_eq (lens_out _ _))
    · rfl
  have l3 : (((f0.leavePage cb).beginpage or psz).line.dashArray, ((f0.leavePage cb).beginpage or psz).line.dashPhase) = (a.map (· * fd.k), ph * fd.k) := by
    rw [bl.1, leave (fun l => (l.dashArray, l.dashPhase)) (fun _ _ h => dash_kept (Reach.lines h).2.2), dash_kept hdash]
    show ((fd.setDashPattern a ph).line.dashArray, (fd.setDashPattern a ph).line.dashPhase) = _
    unfold Fpdf.setDashPattern
    dsimp only
    split
    · exact congrArg (fun l : LineSt => (l.dashArray, l.dashPhase)) (line_eq (lens_out _ _))
    · rfl
  have hkb : ((f0.leavePage cb).beginpage or psz).k = fd.k := by rw [bl.2, hlk, hkk, hkd]
  have W := wrote_pageLines ((f0.leavePage cb).beginpage or psz) b5 f0.save.lw c j a ph l1 l2
    (by rw [hkb]; exact congrArg Prod.fst l3) (by rw [hkb]; exact congrArg Prod.snd l3)
  obtain ⟨line, w1, w2⟩ := Wrote.writes W
  have hline : (((f0.leavePage cb).beginpage or psz).pageLines f0.save.lw).pages[f0.pageCount + 1]? = some line := by
    rw [w1, modifyAt_getElem?, b1, b2, if_pos hn.symm, ← hn, hlc.last]
    simp
  have hF : lineInstrs ((f0.leavePage cb).beginpage or psz) c j f0.save.lw a ph = lineInstrs (Fpdf.new o u s sz) c j f0.getLineWidth a ph := by
    have hp : ∀ x, px ((f0.leavePage cb).beginpage or psz) x = px (Fpdf.new o u s sz) x := fun x => by
      unfold px Fpdf.getConversionRatio
      rw [hkb, hkd]
    unfold lineInstrs dashInstr
    simp only [hp]
    rfl
  rw [hF] at w2
  -- what follows
  have hpg : ((f0.leavePage cb).beginpage or psz).page ≠ 0 := by rw [b1]; omega
  have hgrow : Grow (((f0.leavePage cb).beginpage or psz).pageLines f0.save.lw) (f0.addPageFormat E cb or psz) := by
    unfold Fpdf.addPageFormat
    rw [if_neg (by simp [he])]
    dsimp only
    have hpl := frame_page (pageLines_frm ((f0.leavePage cb).beginpage or psz) f0.save.lw).frame
    generalize ((f0.leavePage cb).beginpage or psz).pageLines f0.save.lw = g0 at hpl ⊢
    have f2 := restoreFont_frm g0 E f0.save
    generalize Fpdf.restoreFont E g0 f0.save = g at f2 ⊢
    split
    · exact Grow.of_frm f2
    · have f3 := f2.trans (pageColors_frm g f0.save)
      have h3 := (Grow.of_frm f3).trans (K.runHeader (g.pageColors f0.save) (by rw [frame_page f3.frame, hpl]; exact hpg)).1.go.grow
      have h4 := h3.trans (Grow.of_frm ((restoreLine_frm _ f0.save).trans (restoreFont_frm _ E f0.save)))
      generalize Fpdf.restoreFont E (Fpdf.restoreLine _ f0.save) f0.save = g2 at h4 ⊢
      split
      · exact h4
      · exact h4.trans (Grow.of_frm (restoreColors_frm g2 f0.save))
  obtain ⟨r1, q1⟩ := hgrow _ _ hline
  obtain ⟨r2, q2⟩ := (reach_gsized hf).1.go.grow _ _ q1
  exact ⟨line, r1 ++ r2, by rw [q2, List.append_assoc], w2⟩

/-- Two dashed pages: the styles are set on the first. -/
def dashedCap : Fpdf := after (Fpdf.new [] (B "pt") [] ⟨300, 400⟩) [.addPage]
def dashedJoin : Fpdf := after dashedCap [.setLineCapStyle (B "round")]
def dashedDash : Fpdf := after dashedJoin [.setLineJoinStyle (B "bevel")]
def dashedBegin : Fpdf := after dashedDash [.setDashPattern [3, 1 / 2] 1, .setLineWidth 2, .line 1 1 5 5]
def dashed : Fpdf := after (dashedBegin.exec {} {} (.addPageFormat (B "p") ⟨300, 500⟩)) [.line 1 1 7 7]

/-- The hypotheses of `C70_page` are met: the second page begins with round caps, bevelled joins, a width of 2 points and the dashes. -/
example : ∃ p rest, dashed.pages[2]? = some (p ++ rest) ∧ Understood p
    [([.num 0 1], "J"), ([.num 0 2], "j"), ([.num 2 2], "w"), ([.punct 0x5B, .num 2 3, .num 2 (1 / 2), .punct 0x5D, .num 2 1], "d")] := by
  have r0 : Reach {} inOrder (Fpdf.new [] (B "pt") [] ⟨300, 400⟩) dashedDash :=
    reach_after (G := inOrder) inOrderB_ok _ _ _ (reach_after (G := inOrder) inOrderB_ok _ _ _ (reach_after (G := inOrder) inOrderB_ok _ _ _ (Reach.refl _) (by decide +kernel)) (by decide +kernel)) (by decide +kernel)
  have r1 : Reach {} inOrder (Fpdf.new [] (B "pt") [] ⟨300, 400⟩) dashedBegin := reach_after (G := inOrder) inOrderB_ok _ _ _ r0 (by decide +kernel)
  have r2 : Reach {} inOrder (dashedBegin.exec {} {} (.addPageFormat (B "p") ⟨300, 500⟩)) dashed := reach_after (G := inOrder) inOrderB_ok _ _ _ (Reach.refl _) (by decide +kernel)
  have c1 : Reach {} (without setsCap) (dashedCap.exec {} {} (.setLineCapStyle (B "round"))) dashedBegin :=
    reach_after (G := without setsCap) (withoutB_ok _) _ _ _ (reach_after (G := without setsCap) (withoutB_ok _) _ _ _ (Reach.refl _) (by decide +kernel)) (by decide +kernel)
  have c2 : Reach {} (without setsJoin) (dashedJoin.exec {} {} (.setLineJoinStyle (B "bevel"))) dashedBegin := reach_after (G := without setsJoin) (withoutB_ok _) _ _ _ (Reach.refl _) (by decide +kernel)
  have c3 : Reach {} (without setsDash) (dashedDash.exec {} {} (.setDashPattern [3, 1 / 2] 1)) dashedBegin :=
    reach_after (G := without setsDash) (withoutB_ok _) _ [.setLineWidth 2, .line 1 1 5 5] _ (Reach.refl _) (by decide +kernel)
  have h := C70_page {} [] (B "pt") [] ⟨300, 400⟩ (by decide +kernel) _ _ _ _ dashed _ _ _ {} _ _ _ _ _ _ r0 r1 c1 c2 c3 ⟨by simp, by simp, fun s => Reach.refl s⟩ ⟨by simp, by simp⟩ (by simp)
    (by decide +kernel) r2
  have e1 : capNumber (B "round") = 1 := by decide +kernel
  have e2 : joinNumber (B "bevel") = 2 := by decide +kernel
  have e3 : px (Fpdf.new [] (B "pt") [] ⟨300, 400⟩) dashedBegin.getLineWidth = 2 := by decide +kernel
  have e4 : ∀ x, px (Fpdf.new [] (B "pt") [] ⟨300, 400⟩) x = x := fun x => by
    unfold px
    rw [show (Fpdf.new [] (B "pt") [] ⟨300, 400⟩).getConversionRatio = 1 by decide +kernel, mul_one]
  rw [show dashedBegin.pageCount + 1 = 2 by decide +kernel] at h
  simp only [lineInstrs, capInstr, joinInstr, dashInstr, e1, e2, e3, e4] at h
  exact h

/-- A header that draws with round caps. -/
def roundHeader : Cb := { header := some fun f => (f.exec {} {} (.setLineCapStyle (B "round"))).exec {} {} (.setLineWidth 9) }

/-- **C70** A header is not undone in this respect: after a header that sets both, the line width is the one before, but the cap style is the header's. -/
theorem C70_header_false : ∃ f g : Fpdf, f = Fpdf.new [] (B "pt") [] ⟨300, 400⟩ ∧ g = f.exec {} roundHeader .addPage ∧ g.err = none ∧ f.line.cap = 0 ∧ g.line.cap = 1 ∧ g.getLineWidth = f.getLineWidth :=
  ⟨_, _, rfl, rfl, by decide +kernel, by decide +kernel, by decide +kernel, by decide +kernel⟩

end Verif.Props
