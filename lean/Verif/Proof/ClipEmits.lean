import Verif.Proof.DrawEmits
/-
Drawing operations that change the nesting of graphics states.
-/
namespace Verif.Proof
open Verif Verif.Model Verif.Spec
section
variable (f : Fpdf)

/-! ### Changes of the nesting -/

/-- Like `Emits`, while the content is `a` (afterwards `b`) graphics states deeper than the document's counters say. -/
structure EmitsD (a b : Nat) (f g : Fpdf) : Prop where
  frm : Frm f g
  wr : Inv f → ∃ is, (∃ b, App f g b ∧ Lines b is) ∧ RegsLe (regsOf f) (regsOf g) ∧
    (∀ d, nestRun (d + a + nestOf f, layOf f) is = some (d + b + nestOf g, layOf g)) ∧ Inv g ∧ (∀ i ∈ is, Resolved (regsOf g) i) ∧
    KeepA (a + nestOf f) (b + nestOf g) is

theorem KeepA.more {m n : Nat} {is : List Instr} (h : KeepA m n is) (a : Nat) : KeepA (a + m) (a + n) is := by
  intro d A st hs
  rw [← Nat.add_assoc] at hs ⊢
  exact h (d + a) A st hs

theorem Emits.toD {f g : Fpdf} (h : Emits f g) (a : Nat) : EmitsD a a f g :=
  ⟨h.frm, fun hi => by
    obtain ⟨is, h, hk⟩ := h.wr hi
    exact ⟨is, h.app, h.regs, fun d => h.nest (d + a), h.inv, h.res, hk.more a⟩⟩

theorem EmitsD.done {f g : Fpdf} (h : EmitsD 0 0 f g) : Emits f g :=
  ⟨h.frm, fun hi => by
    obtain ⟨is, h1, h2, h3, h4, h5, h6⟩ := h.wr hi
    exact ⟨is, ⟨h1, h2, fun d => by simpa using h3 d, h4, h5⟩, by simpa using h6⟩⟩

theorem EmitsD.trans {a b c : Nat} {f g h : Fpdf} (h1 : EmitsD a b f g) (h2 : EmitsD b c g h) : EmitsD a c f h :=
  ⟨h1.frm.trans h2.frm, fun hi => by
    obtain ⟨is, ⟨x, hx, hlx⟩, r1, n1, i1, s1, k1⟩ := h1.wr hi
    obtain ⟨js, ⟨y, hy, hly⟩, r2, n2, i2, s2, k2⟩ := h2.wr i1
    refine ⟨is ++ js, ⟨_, hx.trans h1.frm.frame hy, hlx.append hly⟩, r1.trans r2, fun d => ?_, i2, ?_, k1.trans k2⟩
    · rw [nestRun_append, n1 d]; exact n2 d
    · intro i hi
      rcases List.mem_append.mp hi with hi | hi
      · exact (s1 i hi).mono r2
      · exact s2 i hi⟩

/-- A line whose instructions change the nesting, together with a change of the counters. -/
theorem EmitsD.out {a b : Nat} {f f' : Fpdf} {s : Bytes} (hq : quiet f' = quiet f) (he : f.err ≠ none → f'.err ≠ none)
    (hr : regsOf f' = regsOf f) (hinv : Inv f → Inv f')
    (h : Inv f → ∃ is, Frag s is ∧ (∀ d, nestRun (d + a + nestOf f, layOf f) is = some (d + b + nestOf f', layOf f')) ∧
      (∀ i ∈ is, Resolved (regsOf f) i) ∧ KeepA (a + nestOf f) (b + nestOf f') is) : EmitsD a b f (f'.out s) :=
  ⟨(Frm.upd hq he).trans (Frm.out f' s), fun hi => by
    obtain ⟨is, h1, h2, h3, h4⟩ := h hi
    have h0 := rest_out f' s
    refine ⟨is, ⟨_, (quiet_app hq).trans (congrArg (·.1) hq) (App.out f' s), by simpa using h1.line⟩, ?_, fun d => ?_, rest_inv h0 (hinv hi), ?_, by rw [rest_nest h0]; exact h4⟩
    · rw [rest_regs h0, hr]; exact RegsLe.refl _
    · rw [rest_nest h0, rest_lay h0]; exact h2 d
    · rw [rest_regs h0, hr]; exact h3⟩

theorem nestRun_q (s : Nest) (is : List Instr) (ts : List Tok) : nestRun s ((ts, B "q") :: is) = nestRun (s.1 + 1, s.2) is := by
  simp [nestRun, nestStep]

theorem attrRun_q (A : Attr) (st : List Attr) (is : List Instr) (ts : List Tok) : attrRun (A, st) ((ts, B "q") :: is) = attrRun (A, A :: st) is := by
  show attrRun (attrStep (A, st) (ts, B "q")) is = _
  rw [show attrStep (A, st) (ts, B "q") = (A, A :: st) from if_pos rfl]

theorem attrStep_Q (A : Attr) (st : List Attr) (ts : List Tok) : attrStep (A, st) (ts, B "Q") = (match st with | [] => (A, st) | a :: r => (a, r)) := by
  unfold attrStep
  rw [if_neg (show ¬ (B "Q" = B "q") by decide), if_pos rfl]
  cases st <;> rfl

/-- Saving the graphics state. -/
theorem keep_q (m : Nat) {is : List Instr} (h : Neutral is) {ts : List Tok} : KeepA m (m + 1) ((ts, B "q") :: is) := by
  intro d A st hs
  refine ⟨A :: st, by rw [attrRun_q, h.attr], ?_⟩
  rw [show d + (m + 1) = (d + m) + 1 by omega, List.take_succ_cons]
  intro x hx
  rcases List.mem_cons.mp hx with rfl | hx
  · rfl
  · exact hs x hx

/-- Restoring the graphics state. -/
theorem keep_Q (m : Nat) {ts : List Tok} : KeepA (m + 1) m [(ts, B "Q")] := by
  intro d A st hs
  show ∃ st', attrStep (A, st) (ts, B "Q") = (A, st') ∧ _
  rw [attrStep_Q]
  rw [show d + (m + 1) = (d + m) + 1 by omega] at hs
  cases st with
  | nil => exact ⟨[], rfl, by simp⟩
  | cons a r =>
    rw [List.take_succ_cons] at hs
    exact ⟨r, by rw [hs a (by simp)], fun x hx => hs x (by simp [hx])⟩

/-- A formatted line starting with `q`, followed by plain instructions. -/
theorem frag_q {fmt : String} {args : List Arg} {is : List Instr} (h : sym .ws [] (items (B fmt)) (args.map toS) = some (([], B "q") :: is))
    (hok : args.all argOk = true) (hp : is.all (fun i => plainOp i.2) = true) (hn : noNames is = true) :
    ∃ js, Frag (sprintf fmt args) js ∧ (∀ s : Nest, nestRun s js = some (s.1 + 1, s.2)) ∧ (∀ r, ∀ i ∈ js, Resolved r i) ∧ ∀ m, KeepA m (m + 1) js := by
  refine ⟨_, frag_sprintf h hok, fun s => ?_, fun r i hi => ?_, fun m => keep_q m (PlainFrag.neutral hp)⟩
  · rw [nestRun_q, (PlainFrag.neutral hp).nest]
  · rcases List.mem_cons.mp hi with rfl | hi
    · intro nm hnm; cases hnm
    · exact resolved_of_noNames hn r i hi

/-- A line opening a graphics state that the document counts. -/
theorem Emits.open {f f' : Fpdf} {fmt : String} {args : List Arg} {is : List Instr} (hq : quiet f' = quiet f) (he : f.err ≠ none → f'.err ≠ none)
    (hr : regsOf f' = regsOf f) (hinv : Inv f → Inv f') (hn' : nestOf f' = nestOf f + 1) (hl : layOf f' = layOf f)
    (h : sym .ws [] (items (B fmt)) (args.map toS) = some (([], B "q") :: is))
    (hok : args.all argOk = true) (hp : is.all (fun i => plainOp i.2) = true) (hn : noNames is = true) : Emits f (f'.outf fmt args) := by
  obtain ⟨js, h1, h2, h3, h4⟩ := frag_q h hok hp hn
  refine EmitsD.done (EmitsD.out hq he hr hinv fun _ => ⟨js, h1, fun d => ?_, h3 _, by rw [hn']; exact h4 _⟩)
  rw [h2, hn', hl]; simp [Nat.add_assoc]

/-- A line opening a graphics state that the document does not count. -/
theorem EmitsD.open {f : Fpdf} {fmt : String} {args : List Arg} {is : List Instr} (a : Nat)
    (h : sym .ws [] (items (B fmt)) (args.map toS) = some (([], B "q") :: is))
    (hok : args.all argOk = true) (hp : is.all (fun i => plainOp i.2) = true) (hn : noNames is = true) :
    EmitsD a (a + 1) f (f.outf fmt args) := by
  obtain ⟨js, h1, h2, h3, h4⟩ := frag_q h hok hp hn
  refine EmitsD.out rfl id rfl id fun _ => ⟨js, h1, fun d => ?_, h3 _, by rw [show a + 1 + nestOf f = a + nestOf f + 1 by omega]; exact h4 _⟩
  rw [h2]
  simp only [Option.some.injEq, Prod.mk.injEq, and_true]
  omega

theorem frag_Q : Frag (B "Q") [([], B "Q")] := by
  have := frag_sprintf (fmt := "Q") (args := []) (is := [([], B "Q")]) rfl rfl
  rwa [B_sprintf "Q" (by decide)] at this

theorem EmitsD.close {f : Fpdf} (a : Nat) : EmitsD (a + 1) a f (f.outs "Q") := by
  refine EmitsD.out rfl id rfl id fun _ => ⟨_, frag_Q, fun d => ?_, ?_, by rw [show a + 1 + nestOf f = a + nestOf f + 1 by omega]; exact keep_Q _⟩
  · simp [nestRun, nestStep, show B "Q" ≠ B "q" by decide]
    omega
  · intro i hi; rw [List.mem_singleton.mp hi]; intro nm hnm; cases hnm

/-- Closing a graphics state that the document counts. -/
theorem Emits.close {f f' : Fpdf} (hq : quiet f' = quiet f) (he : f.err ≠ none → f'.err ≠ none)
    (hr : regsOf f' = regsOf f) (hinv : Inv f → Inv f') (hn' : nestOf f = nestOf f' + 1) (hl : layOf f' = layOf f) : Emits f (f'.outs "Q") := by
  refine EmitsD.done (EmitsD.out hq he hr hinv fun _ => ⟨_, frag_Q, fun d => ?_, ?_, by rw [hn']; exact keep_Q _⟩)
  · rw [hn', hl]
    have : d + 0 + (nestOf f' + 1) ≠ 0 := by omega
    simp only [nestRun, nestStep, show B "Q" ≠ B "q" by decide, if_false, if_true, this, Option.bind_some, Option.some.injEq, Prod.mk.injEq,
      and_true]
    omega
  · intro i hi; rw [List.mem_singleton.mp hi]; intro nm hnm; cases hnm

theorem clipRect_emits (x y w h : Rat) (o : Bool) : Emits f (f.clipRect x y w h o) := by
  unfold Fpdf.clipRect
  cases o <;> exact Emits.open rfl id rfl id (by simp [nestOf]; omega) rfl rfl rfl rfl rfl

theorem clipArc_emits (a b c d e g : Rat) : Emits f (f.clipArc a b c d e g) := by unfold Fpdf.clipArc; outf

theorem clipEllipse_emits (T : Trig) (x y rx ry : Rat) (o : Bool) : Emits f (f.clipEllipse T x y rx ry o) := by
  unfold Fpdf.clipEllipse
  dsimp only
  cases o <;> refine Emits.andf (Emits.andf (Emits.andf ?_ rfl rfl rfl rfl) rfl rfl rfl rfl) rfl rfl rfl rfl <;>
    exact Emits.open rfl id rfl id (by simp [nestOf]; omega) rfl rfl rfl rfl rfl

theorem clipRoundedRectExt_emits (T : Trig) (x y w h a b c d : Rat) (o : Bool) : Emits f (f.clipRoundedRectExt T x y w h a b c d o) := by
  unfold Fpdf.clipRoundedRectExt Fpdf.roundedRectPath
  dsimp only
  have : Emits f (({ f with clipNest := f.clipNest + 1 }).outf "q %.5f %.5f m" [.f ((x + a) * f.k), .f ((f.p.h - y) * f.k)]) :=
    Emits.open rfl id rfl id (by simp [nestOf]; omega) rfl rfl rfl rfl rfl
  cases o <;>
  · refine Emits.andf (Emits.andIte (Emits.andf (Emits.andIte (Emits.andf (Emits.andIte (Emits.andf (Emits.andIte (Emits.andf this
      rfl rfl rfl rfl) (clipArc_emits _ _ _ _ _ _ _)) rfl rfl rfl rfl) (clipArc_emits _ _ _ _ _ _ _))
      rfl rfl rfl rfl) (clipArc_emits _ _ _ _ _ _ _)) rfl rfl rfl rfl) (clipArc_emits _ _ _ _ _ _ _)) rfl rfl rfl rfl

theorem clipText_frag (a b : Rat) (z : Int) (t : Bytes) : ∃ js, Frag (sprintf "q BT %.5f %.5f Td %d Tr (%s) Tj ET" [.f a, .f b, .d z, .s (escape t)]) js ∧
    (∀ s : Nest, nestRun s js = some (s.1 + 1, s.2)) ∧ (∀ r, ∀ i ∈ js, Resolved r i) ∧ ∀ m, KeepA m (m + 1) js := by
  have h := sprintf_frag "q BT %.5f %.5f Td %d Tr (%s) Tj ET" [.f a, .f b, .d z, .lit t] (is := ([], B "q") :: [([], B "BT"),
    ([.word (fmtF 5 a), .word (fmtF 5 b)], B "Td"), ([.word (intDec z)], B "Tr"), ([.str t], B "Tj"), ([], B "ET")]) rfl (by
      intro a ha; simp only [List.mem_cons, List.not_mem_nil, or_false] at ha; rcases ha with rfl | rfl | rfl | rfl <;> trivial)
  refine ⟨_, h, fun s => ?_, fun r i hi => ?_, fun m => keep_q m (PlainFrag.neutral rfl)⟩
  · rw [nestRun_q, (PlainFrag.neutral rfl).nest]
  · refine resolved_of_noNames ?_ _ i hi; rfl

theorem clipText_emits (x y : Rat) (t : Bytes) (o : Bool) : Emits f (f.clipText x y t o) := by
  unfold Fpdf.clipText
  obtain ⟨js, h1, h2, h3, h4⟩ := clipText_frag (x * f.k) ((f.p.h - y) * f.k) (if o then 5 else 7) t
  refine EmitsD.done (EmitsD.out rfl id rfl id fun _ => ⟨js, h1, fun d => ?_, h3 _, ?_⟩)
  rotate_left
  · rw [show 0 + nestOf { f with clipNest := f.clipNest + 1 } = (0 + nestOf f) + 1 by simp [nestOf]; omega]; exact h4 _
  rw [h2]; simp [nestOf]; exact ⟨by omega, rfl⟩

theorem transformBegin_emits : Emits f f.transformBegin := by
  unfold Fpdf.transformBegin Fpdf.outs
  rw [← B_sprintf "q" (by decide)]
  exact Emits.open (args := []) rfl id rfl id (by simp [nestOf]; omega) rfl rfl rfl rfl rfl

theorem clipEnd_emits : Emits f f.clipEnd := by
  unfold Fpdf.clipEnd
  refine Emits.ite (fun _ => Emits.ite (fun h => ?_) (fun _ => Emits.upd rfl rfl (by simp [Fpdf.assignErr]))) (fun _ => Emits.refl f)
  exact Emits.close rfl id rfl id (by simp [nestOf]; omega) rfl

theorem transformEnd_emits : Emits f f.transformEnd := by
  unfold Fpdf.transformEnd
  refine Emits.ite (fun h => ?_) (fun _ => Emits.upd rfl rfl (by simp [Fpdf.assignErr]))
  exact Emits.close rfl id rfl id (by simp [nestOf]; omega) rfl

theorem assignErr_emits (e : String) : Emits f (f.assignErr e) := Emits.upd rfl rfl (by simp [Fpdf.assignErr])

theorem setErrorf_emits (e : String) : Emits f (f.setErrorf e) := by
  unfold Fpdf.setErrorf
  split
  · exact Emits.upd rfl rfl (by simp)
  · exact Emits.refl f

theorem transform_emits (a b c d e g : Rat) : Emits f (f.transform a b c d e g) := by
  unfold Fpdf.transform
  exact Emits.ite (fun _ => by outf) (fun _ => Emits.ite (fun _ => assignErr_emits _ _) (fun _ => Emits.refl f))

theorem transformScale_emits (a b x y : Rat) : Emits f (f.transformScale a b x y) := by
  unfold Fpdf.transformScale
  exact Emits.ite (fun _ => assignErr_emits _ _) (fun _ => transform_emits _ _ _ _ _ _ _)

theorem transformRotate_emits (T : Trig) (a x y : Rat) : Emits f (f.transformRotate T a x y) := transform_emits _ _ _ _ _ _ _

theorem transformMirrorLine_emits (T : Trig) (a x y : Rat) : Emits f (f.transformMirrorLine T a x y) :=
  (transformScale_emits f _ _ _ _).trans (transformRotate_emits _ T _ _ _)

theorem transformSkew_emits (T : Trig) (a b x y : Rat) : Emits f (f.transformSkew T a b x y) := by
  unfold Fpdf.transformSkew
  exact Emits.ite (fun _ => assignErr_emits _ _) (fun _ => transform_emits _ _ _ _ _ _ _)

/-! Clipping to a polygon -/

theorem Frag.lines {a : Bytes} {i : List Instr} (h : Frag (a ++ [32]) i) : Lines (a ++ [32]) i := by
  obtain ⟨toks, h1, h2⟩ := h 32 (by decide)
  rw [lexFrom_append] at h1
  have h3 : ∀ m : Mode, lexStep m 32 = ((lexStep m 32).1, (lexStep m 32).2) := fun _ => rfl
  have key : ∀ m, (lexStep (lexStep m 32).1 32).1 = .ws → (lexStep m 32).1 = .ws := by
    intro m hm
    cases m with
    | ws => rfl
    | word w => rfl
    | name w => rfl
    | str d acc sub =>
      cases sub <;> simp [lexStep, strNorm, strEsc, show isOctal 32 = false by decide] at hm
    | lt => exact absurd hm (by decide)
    | gt => rfl
    | hex acc => simp [lexStep] at hm
    | comment => simp [lexStep] at hm
  have e : (lexFrom .ws (a ++ [32])).1 = .ws := by
    rw [lexFrom_append]
    show (lexStep (lexFrom .ws a).1 32).1 = .ws
    apply key
    have := congrArg (·.1) h1
    simp only [lexFrom_append] at this
    exact this
  refine ⟨toks, ?_, h2⟩
  have h4 := congrArg (·.2) h1
  simp only [e] at h4
  have h5 : (lexFrom Mode.ws [32]).2 = [] := by decide
  rw [h5, List.append_nil] at h4
  exact Prod.ext e h4

/-- Instructions followed by white space, all plain and nameless. -/
def PlainLines (s : Bytes) : Prop := ∃ is, Lines s is ∧ is.all (fun i => plainOp i.2) = true ∧ noNames is = true

theorem PlainLines.nil : PlainLines [] := ⟨[], Lines.nil, rfl, rfl⟩

theorem PlainLines.append {a b : Bytes} (ha : PlainLines a) (hb : PlainLines b) : PlainLines (a ++ b) := by
  obtain ⟨i, h1, h2, h3⟩ := ha
  obtain ⟨j, h4, h5, h6⟩ := hb
  refine ⟨i ++ j, h1.append h4, ?_, ?_⟩
  · simp only [List.all_append, Bool.and_eq_true]; exact ⟨h2, h5⟩
  · simp only [noNames, List.all_append, Bool.and_eq_true] at *; exact ⟨h3, h6⟩

theorem PlainLines.frag {a b : Bytes} (ha : PlainLines a) (hb : PlainFrag b) : PlainFrag (a ++ b) := by
  obtain ⟨i, h1, h2, h3⟩ := ha
  obtain ⟨j, h4, h5, h6⟩ := hb
  refine ⟨i ++ j, h1.frag h4, ?_, ?_⟩
  · simp only [List.all_append, Bool.and_eq_true]; exact ⟨h2, h5⟩
  · simp only [noNames, List.all_append, Bool.and_eq_true] at *; exact ⟨h3, h6⟩

theorem PlainFrag.lines {a : Bytes} (h : PlainFrag (a ++ [32])) : PlainLines (a ++ [32]) := by
  obtain ⟨i, h1, h2, h3⟩ := h
  exact ⟨i, h1.lines, h2, h3⟩

theorem polyPt_m (a b : Rat) : PlainLines (sprintf "%.5f %.5f %s " [.f a, .f b, .s (B "m")]) := by
  have h : PlainFrag (sprintf "%.5f %.5f %s " [.f a, .f b, .s (B "m")]) := plain_sprintf rfl rfl rfl rfl
  have e : sprintf "%.5f %.5f %s " [.f a, .f b, .s (B "m")] = (fmtF 5 a ++ 32 :: (fmtF 5 b ++ [32, 109])) ++ [32] := by
    show fmtF 5 a ++ 32 :: (fmtF 5 b ++ [32, 109, 32]) = _
    simp
  rw [e] at h ⊢
  exact h.lines

theorem polyPt_l (a b : Rat) : PlainLines (sprintf "%.5f %.5f %s " [.f a, .f b, .s (B "l")]) := by
  have h : PlainFrag (sprintf "%.5f %.5f %s " [.f a, .f b, .s (B "l")]) := plain_sprintf rfl rfl rfl rfl
  have e : sprintf "%.5f %.5f %s " [.f a, .f b, .s (B "l")] = (fmtF 5 a ++ 32 :: (fmtF 5 b ++ [32, 108])) ++ [32] := by
    show fmtF 5 a ++ 32 :: (fmtF 5 b ++ [32, 108, 32]) = _
    simp
  rw [e] at h ⊢
  exact h.lines

theorem clipPolyPts_plain (op : String) (hop : op = "m" ∨ op = "l") (pts : List (Rat × Rat)) : PlainLines (f.clipPolyPts op pts) := by
  induction pts generalizing op with
  | nil => exact PlainLines.nil
  | cons p r ih =>
    rw [Fpdf.clipPolyPts]
    refine PlainLines.append ?_ (ih "l" (.inr rfl))
    rcases hop with rfl | rfl
    · exact polyPt_m _ _
    · exact polyPt_l _ _

theorem clipPolygon_emits (pts : List (Rat × Rat)) (o : Bool) : Emits f (f.clipPolygon pts o) := by
  unfold Fpdf.clipPolygon
  dsimp only
  have hw : PlainFrag (sprintf "h W %s" [.s (Fpdf.strIf o "S" "n")]) := by cases o <;> exact plain_sprintf rfl rfl rfl rfl
  obtain ⟨is, h1, h2, h3⟩ := (clipPolyPts_plain ({ f with clipNest := f.clipNest + 1 }) "m" (.inl rfl) pts).frag hw
  have hq : Frag (B "q") [([], B "q")] := by
    have := frag_sprintf (fmt := "q") (args := []) (is := [([], B "q")]) rfl rfl
    rwa [B_sprintf "q" (by decide)] at this
  have h4 := hq.append h1 32 (by decide)
  have e : B "q" ++ [32] = B "q " := rfl
  rw [e] at h4
  refine EmitsD.done (EmitsD.out rfl id rfl id fun _ => ⟨_, (by rw [List.append_assoc]; exact h4), fun d => ?_, ?_, ?_⟩)
  rotate_left 2
  · rw [show 0 + nestOf { f with clipNest := f.clipNest + 1 } = (0 + nestOf f) + 1 by simp [nestOf]; omega]; exact keep_q _ (PlainFrag.neutral h2)
  · rw [List.singleton_append, nestRun_q, (PlainFrag.neutral h2).nest]; simp [nestOf]; exact ⟨by omega, rfl⟩
  · intro i hi
    rcases List.mem_append.mp hi with hi | hi
    · rw [List.mem_singleton.mp hi]; intro nm hnm; cases hnm
    · exact resolved_of_noNames h3 _ i hi

/-! Arcs -/

theorem Emits.foldlS {α β} (F : Fpdf × β → α → Fpdf × β) (h : ∀ s a, Emits s.1 (F s a).1) (l : List α) (s : Fpdf × β) :
    Emits s.1 (l.foldl F s).1 := by
  induction l generalizing s with
  | nil => exact Emits.refl _
  | cons a l ih => exact (h s a).trans (ih _)

theorem arcSeg_emits (T : Trig) (a b c x y rx ry : Rat) (path : Bool) (s : Fpdf × Rat × Rat × Rat × Rat) (j : Nat) :
    Emits s.1 (Fpdf.arcSeg T a b c x y rx ry path s j).1 := by
  obtain ⟨f, a0, b0, c0, d0⟩ := s
  unfold Fpdf.arcSeg
  dsimp only
  exact Emits.trans (curve_emits f _ _ _ _ _ _) (Emits.ite (fun _ => Emits.upd rfl rfl id) (fun _ => Emits.refl _))

/-- The part of `arc` after the rotation. -/
theorem arcBody_emits {style : Bytes} (hs : fillDrawOp style ∈ paintOps) (T : Trig) (x y rx ry degStart dtDeg dtm : Rat) (n : Nat) (path : Bool) :
    Emits f (
      let a0 := x + rx * T.cos degStart
      let b0 := y + ry * T.sin degStart
      let c0 := -rx * T.sin degStart
      let d0 := ry * T.cos degStart
      let sx := a0 / f.k
      let sy := f.p.h - b0 / f.k
      let f :=
        if path then (if f.p.x ≠ sx ∨ f.p.y ≠ sy then f.lineTo sx sy else f)
        else f.point sx sy
      let f := ((List.range n).foldl (fun s j => Fpdf.arcSeg T degStart dtDeg dtm x y rx ry path s (j + 1))
        (f, a0, b0, c0, d0)).1
      if path then f else f.out (fillDrawOp style)) := by
  dsimp only
  generalize x + rx * T.cos degStart = a0
  generalize y + ry * T.sin degStart = b0
  generalize -rx * T.sin degStart = c0
  generalize ry * T.cos degStart = d0
  have h1 : Emits f (if path = true then (if f.p.x ≠ a0 / f.k ∨ f.p.y ≠ f.p.h - b0 / f.k then f.lineTo (a0 / f.k) (f.p.h - b0 / f.k) else f)
        else f.point (a0 / f.k) (f.p.h - b0 / f.k)) :=
    Emits.ite (fun _ => Emits.ite (fun _ => lineTo_emits _ _ _) (fun _ => Emits.refl _)) (fun _ => point_emits _ _ _)
  generalize (if path = true then (if f.p.x ≠ a0 / f.k ∨ f.p.y ≠ f.p.h - b0 / f.k then f.lineTo (a0 / f.k) (f.p.h - b0 / f.k) else f)
        else f.point (a0 / f.k) (f.p.h - b0 / f.k)) = g at h1 ⊢
  refine h1.trans ?_
  have h2 := Emits.foldlS (fun s j => Fpdf.arcSeg T degStart dtDeg dtm x y rx ry path s (j + 1))
    (fun s a => arcSeg_emits T _ _ _ _ _ _ _ _ _ _) (List.range n) (g, a0, b0, c0, d0)
  refine Emits.trans h2 ?_
  exact Emits.ite (fun _ => Emits.refl _) (fun _ => Emits.outP (paint_plain hs))

theorem arc_emits {style : Bytes} (hs : fillDrawOp style ∈ paintOps) (T : Trig) (x y rx ry r a b : Rat) (path : Bool) :
    Emits f (f.arc T x y rx ry r a b style path) := by
  unfold Fpdf.arc
  by_cases hr : r ≠ 0
  · simp only [hr, if_true, ne_eq, not_false_iff]
    refine EmitsD.done (EmitsD.trans (b := 1) ?_ (EmitsD.close 0))
    refine EmitsD.trans (g := f.outf "q %.5f %.5f %.5f %.5f %.5f %.5f cm" [.f (T.cos (-r)), .f (-1 * T.sin (-r)),
        .f (T.sin (-r)), .f (T.cos (-r)), .f (x * f.k), .f ((f.p.h - y) * f.k)]) (EmitsD.open 0 rfl rfl rfl rfl) ?_
    exact (arcBody_emits _ hs T _ _ _ _ _ _ _ _ _).toD 1
  · simp only [hr, if_false]
    exact arcBody_emits f hs T _ _ _ _ _ _ _ _ _

end
end Verif.Proof
