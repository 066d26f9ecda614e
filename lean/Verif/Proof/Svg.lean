import Verif.Spec.SvgRel
import Mathlib.Algebra.Order.Field.Rat
import Mathlib.Tactic.Ring
namespace Verif.Proof
open Verif Verif.Model Verif.Spec

/-- The absolute form of a command when the library believes the current point is `p`. -/
def absCmd (p : Pt) : SvgCmd → SvgCmd
  | .move rel q => .move false (resolve rel p q)
  | .line rel q => .line false (resolve rel p q)
  | .horiz rel x => .horiz false (if rel then p.x + x else x)
  | .vert rel y => .vert false (if rel then p.y + y else y)
  | .cubic rel a b q => .cubic false (resolve rel p a) (resolve rel p b) (resolve rel p q)
  | .quad rel a q => .quad false (resolve rel p a) (resolve rel p q)
  | .close => .close

/-- The point the library believes to be current afterwards. -/
def libPos (p : Pt) : SvgCmd → Pt
  | .move rel q => resolve rel p q
  | .line rel q => resolve rel p q
  | .horiz rel x => ⟨if rel then p.x + x else x, p.y⟩
  | .vert rel y => ⟨p.x, if rel then p.y + y else y⟩
  | .cubic rel _ _ q => resolve rel p q
  | .quad rel _ q => resolve rel p q
  | .close => p

theorem decSeg_cmd {s : Seg} {c : SvgCmd} (h : decSeg s = some c) :
    s.cmd = 77 ∨ s.cmd = 109 ∨ s.cmd = 76 ∨ s.cmd = 108 ∨ s.cmd = 67 ∨ s.cmd = 99 ∨ s.cmd = 81 ∨ s.cmd = 113 ∨
    s.cmd = 72 ∨ s.cmd = 104 ∨ s.cmd = 86 ∨ s.cmd = 118 ∨ s.cmd = 90 ∨ s.cmd = 122 := by
  unfold decSeg cM cm cL cl cC cc cQ cq cH ch cV cv cZ cz at h
  grind

theorem absolutizeSeg_spec (first : Bool) (x y : Rat) (s : Seg) (c : SvgCmd) (h : decSeg s = some c)
    (hf : first = true → x = 0 ∧ y = 0) :
    decSeg (absolutizeSeg first x y s).1 = some (absCmd ⟨x, y⟩ c) ∧ (absolutizeSeg first x y s).1.cmd ≠ cz ∧
      (absolutizeSeg first x y s).2 = ((libPos ⟨x, y⟩ c).x, (libPos ⟨x, y⟩ c).y) := by
  obtain ⟨cmd, a0, a1, a2, a3, a4, a5⟩ := s
  have hcmd := decSeg_cmd h
  simp only at hcmd
  rcases hcmd with e | e | e | e | e | e | e | e | e | e | e | e | e | e <;> subst e <;>
    simp [decSeg, cM, cm, cL, cl, cC, cc, cQ, cq, cH, ch, cV, cv, cZ, cz] at h <;> subst h <;>
    cases first <;>
    simp_all [absolutizeSeg, decSeg, absCmd, libPos, resolve, Pt.add, cM, cm, cL, cl, cC, cc, cQ, cq, cH, ch, cV, cv, cZ, cz,
      Rat.add_comm]

/-- `SVGBasicWrite` draws what the (absolute) path means. -/
theorem svgWrite_sim (ox oy sc : Rat) (segs : List Seg) (cmds : List SvgCmd) (h : decSegs segs = some cmds)
    (habs : ∀ c ∈ cmds, isAbs c = true) (hz : ∀ s ∈ segs, s.cmd ≠ cz) (cur start : Pt) :
    callStrokes (svgWriteFrom ox oy sc (place ox oy sc cur).x (place ox oy sc cur).y
          (place ox oy sc start).x (place ox oy sc start).y segs) =
        some ((svgStrokes cur start cmds).map (Stroke.map (place ox oy sc))) := by
  induction segs generalizing cmds cur start with
  | nil => simp only [decSegs, Option.some.injEq] at h; subst h; simp [svgWriteFrom, callStrokes, svgStrokes]
  | cons s r ih =>
    simp only [decSegs] at h
    split at h
    · rename_i c tail hc hcs
      simp only [Option.some.injEq] at h
      subst h
      have ih' := ih tail hcs (fun c hc => habs c (by simp [hc])) (fun s hs => hz s (by simp [hs]))
      have ha := habs c (by simp)
      have hz := hz s (by simp)
      clear ih habs
      obtain ⟨cmd, a0, a1, a2, a3, a4, a5⟩ := s
      have hcmd := decSeg_cmd hc
      simp only at hcmd
      rcases hcmd with e | e | e | e | e | e | e | e | e | e | e | e | e | e <;> subst e <;>
        simp [decSeg, cM, cm, cL, cl, cC, cc, cQ, cq, cH, ch, cV, cv, cZ, cz] at hc <;> subst hc <;>
        simp [isAbs, cz] at ha hz
      · have := ih' ⟨a0, a1⟩ ⟨a0, a1⟩
        simpa [svgWriteFrom, cM, svgStrokes, resolve, callStrokes, place] using this
      · have := ih' ⟨a0, a1⟩ start
        simp only [place] at this
        simp [svgWriteFrom, cM, cL, svgStrokes, resolve, callStrokes, place, Stroke.map, this]
      · have := ih' ⟨a4, a5⟩ start
        simp only [place] at this
        simp [svgWriteFrom, cM, cL, cC, svgStrokes, resolve, callStrokes, place, Stroke.map, this]
      · have := ih' ⟨a2, a3⟩ start
        simp only [place] at this
        simp [svgWriteFrom, cM, cL, cC, cQ, svgStrokes, resolve, callStrokes, place, Stroke.map, this]
      · have := ih' ⟨a0, cur.y⟩ start
        simp only [place] at this
        simp [svgWriteFrom, cM, cL, cC, cQ, cH, svgStrokes, callStrokes, place, Stroke.map, this]
      · have := ih' ⟨cur.x, a0⟩ start
        simp only [place] at this
        simp [svgWriteFrom, cM, cL, cC, cQ, cH, cV, svgStrokes, callStrokes, place, Stroke.map, this]
      · have := ih' start start
        simp only [place] at this
        simp [svgWriteFrom, cM, cL, cC, cQ, cH, cV, cZ, svgStrokes, callStrokes, place, Stroke.map, this]
    · cases h

theorem isAbs_absCmd (p : Pt) (c : SvgCmd) : isAbs (absCmd p c) = true := by
  cases c <;> rfl

/-- `absolutizePath` resolves relative commands. -/
theorem absolutize_sim (segs : List Seg) :
    ∀ (cmds : List SvgCmd) (first sync : Bool) (x y : Rat) (cur start : Pt),
      decSegs segs = some cmds → syncOK sync cmds = true →
      (sync = true → cur = ⟨x, y⟩) → (first = true → x = 0 ∧ y = 0) →
      ∃ cmds', decSegs (absolutizeFrom first x y segs) = some cmds' ∧ (∀ c ∈ cmds', isAbs c = true) ∧
        (∀ s ∈ absolutizeFrom first x y segs, s.cmd ≠ cz) ∧
        svgStrokes cur start cmds' = svgStrokes cur start cmds := by
  induction segs with
  | nil =>
    intro cmds first sync x y cur start hd _ _ _
    simp only [decSegs, Option.some.injEq] at hd; subst hd
    exact ⟨[], by simp [absolutizeFrom, decSegs]⟩
  | cons s r ih =>
    intro cmds first sync x y cur start hd hok hsync hfirst
    simp only [decSegs] at hd
    split at hd
    · rename_i c cs hc hcs
      simp only [Option.some.injEq] at hd
      subst hd
      obtain ⟨h1, h2, h3⟩ := absolutizeSeg_spec first x y s c hc hfirst
      -- position after the command according to the standard, and the new sync flag
      obtain ⟨cur', start', sync', hst, hok', hsync'⟩ : ∃ (cur' start' : Pt) (sync' : Bool),
          (∀ l l', svgStrokes cur' start' l = svgStrokes cur' start' l' →
              svgStrokes cur start (absCmd ⟨x, y⟩ c :: l) = svgStrokes cur start (c :: l')) ∧
          syncOK sync' cs = true ∧ (sync' = true → cur' = libPos ⟨x, y⟩ c) := by
        cases c with
        | move rel p =>
          simp only [syncOK, Bool.and_eq_true] at hok
          refine ⟨resolve rel cur p, resolve rel cur p, true, ?_, hok.2, ?_⟩
          · intro l l' hl
            cases rel
            · simpa [absCmd, svgStrokes, resolve] using hl
            · have := hsync (by simpa using hok.1)
              subst this
              simpa [absCmd, svgStrokes, resolve] using hl
          · intro _
            cases rel
            · rfl
            · have := hsync (by simpa using hok.1); subst this; rfl
        | line rel p =>
          simp only [syncOK, Bool.and_eq_true] at hok
          refine ⟨resolve rel cur p, start, true, ?_, hok.2, ?_⟩
          · intro l l' hl
            cases rel
            · simpa [absCmd, svgStrokes, resolve] using hl
            · have := hsync (by simpa using hok.1)
              subst this
              simpa [absCmd, svgStrokes, resolve] using hl
          · intro _
            cases rel
            · rfl
            · have := hsync (by simpa using hok.1); subst this; rfl
        | cubic rel a b p =>
          simp only [syncOK, Bool.and_eq_true] at hok
          refine ⟨resolve rel cur p, start, true, ?_, hok.2, ?_⟩
          · intro l l' hl
            cases rel
            · simpa [absCmd, svgStrokes, resolve] using hl
            · have := hsync (by simpa using hok.1)
              subst this
              simpa [absCmd, svgStrokes, resolve] using hl
          · intro _
            cases rel
            · rfl
            · have := hsync (by simpa using hok.1); subst this; rfl
        | quad rel a p =>
          simp only [syncOK, Bool.and_eq_true] at hok
          refine ⟨resolve rel cur p, start, true, ?_, hok.2, ?_⟩
          · intro l l' hl
            cases rel
            · simpa [absCmd, svgStrokes, resolve] using hl
            · have := hsync (by simpa using hok.1)
              subst this
              simpa [absCmd, svgStrokes, resolve] using hl
          · intro _
            cases rel
            · rfl
            · have := hsync (by simpa using hok.1); subst this; rfl
        | horiz rel v =>
          simp only [syncOK, Bool.and_eq_true] at hok
          refine ⟨⟨if rel then cur.x + v else v, cur.y⟩, start, sync, ?_, hok.2, ?_⟩
          · intro l l' hl
            cases rel
            · simpa [absCmd, svgStrokes, resolve] using hl
            · have := hsync (by simpa using hok.1)
              subst this
              simpa [absCmd, svgStrokes, resolve] using hl
          · intro hs
            have := hsync hs; subst this; rfl
        | vert rel v =>
          simp only [syncOK, Bool.and_eq_true] at hok
          refine ⟨⟨cur.x, if rel then cur.y + v else v⟩, start, sync, ?_, hok.2, ?_⟩
          · intro l l' hl
            cases rel
            · simpa [absCmd, svgStrokes, resolve] using hl
            · have := hsync (by simpa using hok.1)
              subst this
              simpa [absCmd, svgStrokes, resolve] using hl
          · intro hs
            have := hsync hs; subst this; rfl
        | close =>
          refine ⟨start, start, false, ?_, by simpa [syncOK] using hok, by simp⟩
          intro l l' hl
          simpa [absCmd, svgStrokes] using hl
      obtain ⟨cmds', e1, e2, e3, e4⟩ := ih cs false sync' (libPos ⟨x, y⟩ c).x (libPos ⟨x, y⟩ c).y cur' start' hcs hok'
        (by intro h; rw [hsync' h]) (by simp)
      refine ⟨absCmd ⟨x, y⟩ c :: cmds', ?_, ?_, ?_, hst _ _ e4⟩
      · show decSegs ((absolutizeSeg first x y s).1 :: absolutizeFrom false (absolutizeSeg first x y s).2.1 (absolutizeSeg first x y s).2.2 r) = _
        rw [h3]
        simp [decSegs, h1, e1]
      · intro d hd
        rcases List.mem_cons.mp hd with h | h
        · subst h; exact isAbs_absCmd _ _
        · exact e2 d h
      · show ∀ t ∈ (absolutizeSeg first x y s).1 :: absolutizeFrom false (absolutizeSeg first x y s).2.1 (absolutizeSeg first x y s).2.2 r, t.cmd ≠ cz
        rw [h3]
        intro d hd
        rcases List.mem_cons.mp hd with h | h
        · subst h; exact h2
        · exact e3 d h
    · cases hd

/-! ### Parsing -/

theorem fieldsFrom_word (cur w : Bytes) (rest : Bytes) (h : ∀ c ∈ w, isFieldSpace c = false) :
    fieldsFrom cur (w ++ rest) = fieldsFrom (cur ++ w) rest := by
  induction w generalizing cur with
  | nil => simp
  | cons a w ih =>
    have ha := h a (by simp)
    simp only [List.cons_append]
    conv => lhs; unfold fieldsFrom
    simp only [ha, Bool.false_eq_true, if_false]
    rw [ih _ (fun c hc => h c (by simp [hc]))]
    simp

theorem fieldsFrom_space (cur : Bytes) (rest : Bytes) :
    fieldsFrom cur (32 :: rest) = (if cur = [] then [] else [cur]) ++ fieldsFrom [] rest := by
  conv => lhs; unfold fieldsFrom
  simp only [isFieldSpace, decide_true, Bool.or_true, if_true]
  split <;> simp

theorem parseToks_append (pf : Bytes → Option Rat) (st : ParseSt) (j : Nat) (a b : List Bytes) :
    parseToks pf st j (a ++ b) = parseToks pf (parseToks pf st j a) (j + a.length) b := by
  induction a generalizing st j with
  | nil => simp [parseToks]
  | cons t a ih => simp [parseToks, ih, Nat.add_assoc, Nat.add_comm 1]

theorem argVals_length {pf : Bytes → Option Rat} {as : List Bytes} {vs : List Rat} (h : argVals pf as = some vs) :
    as.length = vs.length := by
  induction as generalizing vs with
  | nil => simp [argVals] at h; subst h; rfl
  | cons a as ih =>
    simp only [argVals] at h
    split at h
    · rename_i hv; simp at h; subst h; simp [ih hv]
    · cases h

/-- Store argument values from position `j` on. -/
def setArgs (s : Seg) : Nat → List Rat → Seg
  | _, [] => s
  | j, v :: vs => setArgs (s.setArg j v) (j + 1) vs

theorem setArgs_cmd (s : Seg) (j : Nat) (vs : List Rat) : (setArgs s j vs).cmd = s.cmd := by
  induction vs generalizing s j with
  | nil => rfl
  | cons v vs ih =>
    show (setArgs (s.setArg j v) (j + 1) vs).cmd = s.cmd
    rw [ih]; unfold Seg.setArg; split <;> rfl

theorem parse_args (pf : Bytes → Option Rat) (as : List Bytes) :
    ∀ (vs : List Rat) (st : ParseSt) (j : Nat), argVals pf as = some vs → st.err = false → as ≠ [] →
      st.argCount = as.length →
      parseToks pf st j as = { st with seg := setArgs st.seg st.argJ vs, argJ := st.argJ + as.length, argCount := 0,
                                       segs := st.segs ++ [setArgs st.seg st.argJ vs] } := by
  induction as with
  | nil => intro vs st j _ _ h; exact absurd rfl h
  | cons t r ih =>
    intro vs st j hv he _ hc
    simp only [argVals] at hv
    split at hv
    · rename_i v vs' h1 h2
      simp only [Option.some.injEq] at hv
      subst hv
      have hne : st.argCount ≠ 0 := by simp [hc]
      have hstep : parseTok pf st j t =
          (if st.argCount - 1 = 0 then
            { st with seg := st.seg.setArg st.argJ v, argJ := st.argJ + 1, argCount := st.argCount - 1,
                      segs := st.segs ++ [st.seg.setArg st.argJ v] }
           else { st with seg := st.seg.setArg st.argJ v, argJ := st.argJ + 1, argCount := st.argCount - 1 }) := by
        simp [parseTok, he, hne, h1]
      simp only [parseToks, hstep]
      cases r with
      | nil =>
        simp only [argVals, Option.some.injEq] at h2
        subst h2
        simp [parseToks, hc, setArgs]
      | cons t' r' =>
        have : ¬ st.argCount - 1 = 0 := by simp [hc]
        simp only [this, if_false]
        rw [ih vs' _ (j + 1) h2 (by simpa using he) (by simp) (by simp [hc])]
        simp [setArgs]
        omega
    · cases hv

theorem cmdOf_cases {c : UInt8} {vs : List Rat} {cmd : SvgCmd} (h : cmdOf c vs = some cmd) :
    c = 77 ∨ c = 109 ∨ c = 76 ∨ c = 108 ∨ c = 67 ∨ c = 99 ∨ c = 81 ∨ c = 113 ∨
    c = 72 ∨ c = 104 ∨ c = 86 ∨ c = 118 ∨ c = 90 ∨ c = 122 := by
  unfold cmdOf at h
  grind

theorem cmdOf_spec {c : UInt8} {vs : List Rat} {cmd : SvgCmd} (h : cmdOf c vs = some cmd) :
    cmdArgs c = some vs.length ∧ (c ≠ 45 ∧ ¬ (48 ≤ c ∧ c ≤ 57)) ∧
      (∀ s : Seg, vs ≠ [] ∨ s.cmd = c → decSeg (setArgs { s with cmd := c } 0 vs) = some cmd) := by
  rcases cmdOf_cases h with e | e | e | e | e | e | e | e | e | e | e | e | e | e <;> subst e <;>
    (simp [cmdOf] at h
     split at h
     · cases h
       refine ⟨by simp [cmdArgs, cM, cm, cL, cl, cC, cc, cQ, cq, cH, ch, cV, cv, cZ, cz], by decide, fun s _ => ?_⟩
       simp [decSeg, setArgs, Seg.setArg, cM, cm, cL, cl, cC, cc, cQ, cq, cH, ch, cV, cv, cZ, cz]
     · cases h)

/-- One command with its arguments is parsed to one segment. -/
theorem parse_item (pf : Bytes → Option Rat) (st : ParseSt) (j : Nat) (c : UInt8) (as : List Bytes)
    (vs : List Rat) (cmd : SvgCmd) (hv : argVals pf as = some vs) (hc : cmdOf c vs = some cmd)
    (he : st.err = false) (h0 : st.argCount = 0) :
    ∃ seg, decSeg seg = some cmd ∧ (parseToks pf st j ([c] :: as)).segs = st.segs ++ [seg] ∧
      (parseToks pf st j ([c] :: as)).err = false ∧ (parseToks pf st j ([c] :: as)).argCount = 0 ∧
      (parseToks pf st j ([c] :: as)).seg.cmd = c ∧ (as ≠ [] → (parseToks pf st j ([c] :: as)).prevArgCount = as.length) := by
  obtain ⟨h1, ⟨h2, h3⟩, h4⟩ := cmdOf_spec hc
  have hl := argVals_length hv
  cases as with
  | nil =>
    have hvs : vs = [] := by simp [argVals] at hv; exact hv
    subst hvs
    simp only [List.length_nil] at h1
    refine ⟨{ st.seg with cmd := c }, ?_, ?_, ?_, ?_, ?_, fun hn => absurd rfl hn⟩
    · exact h4 { st.seg with cmd := c } (Or.inr rfl)
    · simp [parseToks, parseTok, he, h0, h2, h3, h1]
    · simp [parseToks, parseTok, he, h0, h2, h3, h1]
    · simp [parseToks, parseTok, he, h0, h2, h3, h1]
    · simp [parseToks, parseTok, he, h0, h2, h3, h1]
  | cons a as =>
    have hpos : vs.length = as.length + 1 := by simp at hl; omega
    have hstep : parseTok pf st j [c] = ({ st with seg := { cmd := c } } : ParseSt).setup (as.length + 1) := by
      rw [hpos] at h1
      simp [parseTok, he, h0, h2, h3, h1, ParseSt.setup]
    simp only [parseToks, hstep]
    have := parse_args pf (a :: as) vs (({ st with seg := { cmd := c } } : ParseSt).setup (as.length + 1)) (j + 1) hv
      (by simp [ParseSt.setup, he]) (by simp) (by simp [ParseSt.setup])
    simp only [parseToks] at this
    rw [this]
    refine ⟨setArgs { cmd := c } 0 vs, ?_, ?_, ?_, rfl, ?_, fun _ => ?_⟩
    · exact h4 { cmd := c } (Or.inr rfl)
    · simp [ParseSt.setup]
    · simp [ParseSt.setup, he]
    · simp [ParseSt.setup, setArgs_cmd]
    · simp [ParseSt.setup]

theorem decSegs_append (a b : List Seg) (ca cb : List SvgCmd) (ha : decSegs a = some ca) (hb : decSegs b = some cb) :
    decSegs (a ++ b) = some (ca ++ cb) := by
  induction a generalizing ca with
  | nil => simp [decSegs] at ha; subst ha; simpa using hb
  | cons s a ih =>
    simp only [decSegs] at ha
    split at ha
    · rename_i c cs h1 h2
      simp only [Option.some.injEq] at ha; subst ha
      simp [decSegs, h1, ih cs h2]
    · cases ha

/-- A letter and the letter of the groups that continue it take the same number of arguments. -/
theorem implied_args (c : UInt8) : cmdArgs (implied c) = cmdArgs c := by
  unfold implied cmdArgs
  by_cases h1 : c = 77
  · subst h1; decide
  · by_cases h2 : c = 109
    · subst h2; decide
    · simp [h1, h2]

theorem implied_idem (c : UInt8) : implied (implied c) = implied c := by
  unfold implied
  by_cases h1 : c = 77
  · subst h1; decide
  · by_cases h2 : c = 109
    · subst h2; decide
    · simp [h1, h2]

/-- An argument group without a letter is parsed to one segment. -/
theorem parse_more (pf : Bytes → Option Rat) (st : ParseSt) (j : Nat) (hj : 0 < j) (t : Bytes) (as : List Bytes)
    (vs : List Rat) (cmd : SvgCmd) (hv : argVals pf (t :: as) = some vs) (hc : cmdOf (implied st.seg.cmd) vs = some cmd)
    (he : st.err = false) (h0 : st.argCount = 0) (hp : st.prevArgCount = as.length + 1) (hs : startsPlain t = true) :
    ∃ seg, decSeg seg = some cmd ∧ (parseToks pf st j (t :: as)).segs = st.segs ++ [seg] ∧
      (parseToks pf st j (t :: as)).err = false ∧ (parseToks pf st j (t :: as)).argCount = 0 ∧
      (parseToks pf st j (t :: as)).seg.cmd = implied st.seg.cmd ∧ (parseToks pf st j (t :: as)).prevArgCount = as.length + 1 := by
  obtain ⟨-, -, h4⟩ := cmdOf_spec hc
  let st' : ParseSt := { st with seg := { cmd := implied st.seg.cmd }, argJ := 0, argCount := as.length + 1, prevArgCount := as.length + 1 }
  have hstart : t.headD 0 = 45 ∨ (48 ≤ t.headD 0 ∧ t.headD 0 ≤ 57) := by
    cases t with
    | nil => simp [startsPlain] at hs
    | cons c r =>
      simp only [startsPlain, isDigit, Bool.or_eq_true, decide_eq_true_eq, Bool.and_eq_true] at hs
      exact hs
  have hstep : parseTok pf st j t = parseTok pf st' j t := by
    by_cases h1 : st.seg.cmd = 77
    · simp only [parseTok, he, h0, hstart, hj, ParseSt.setup, hp, st', implied, h1, show cM = 77 from rfl, show cm = 109 from rfl, show cL = 76 from rfl]
      simp
    · by_cases h2 : st.seg.cmd = 109
      · simp only [parseTok, he, h0, hstart, hj, ParseSt.setup, hp, st', implied, h2, show cM = 77 from rfl, show cm = 109 from rfl, show cl = 108 from rfl]
        simp
      · simp only [parseTok, he, h0, hstart, hj, ParseSt.setup, hp, st', implied, h1, h2, show cM = 77 from rfl, show cm = 109 from rfl]
        simp
  have := parse_args pf (t :: as) vs st' j hv he (by simp) (by simp [st'])
  have e : parseToks pf st j (t :: as) = parseToks pf st' j (t :: as) := by
    show parseToks pf (parseTok pf st j t) (j + 1) as = parseToks pf (parseTok pf st' j t) (j + 1) as
    rw [hstep]
  rw [e, this]
  refine ⟨setArgs st'.seg 0 vs, h4 st'.seg (Or.inr rfl), rfl, he, rfl, ?_, rfl⟩
  exact setArgs_cmd _ _ _

/-- The groups that continue a command are parsed to one segment each. -/
theorem parse_mores (pf : Bytes → Option Rat) (c : UInt8) (n : Nat) (gs : List (List Bytes)) :
    ∀ (cmds done : List SvgCmd) (st : ParseSt) (j : Nat), moreCmds pf (implied c) gs = some cmds → cmdArgs c = some n →
      (∀ g ∈ gs, ∃ t r, g = t :: r ∧ startsPlain t = true) → 0 < j →
      implied st.seg.cmd = implied c → st.prevArgCount = n →
      st.err = false → st.argCount = 0 → decSegs st.segs = some done →
      let st' := parseToks pf st j gs.flatten
      st'.err = false ∧ st'.argCount = 0 ∧ decSegs st'.segs = some (done ++ cmds) := by
  induction gs with
  | nil =>
    intro cmds done st j h _ _ _ _ _ he h0 hd
    simp [moreCmds] at h; subst h
    simp [parseToks, he, h0, hd]
  | cons g r ih =>
    intro cmds done st j h hn hg hj hcm hp he h0 hd
    simp only [moreCmds] at h
    split at h
    · rename_i cmd cs h1 h2
      simp only [Option.some.injEq] at h; subst h
      obtain ⟨vs, hv, hc⟩ := Option.bind_eq_some_iff.mp h1
      obtain ⟨t, as, e, hs⟩ := hg g (by simp)
      subst e
      have hlen : as.length + 1 = n := by
        have a1 := (cmdOf_spec hc).1
        rw [implied_args, hn] at a1
        have a2 := argVals_length hv
        simp only [Option.some.injEq] at a1
        simp only [List.length_cons] at a2
        omega
      obtain ⟨seg, g1, g2, g3, g4, g5, g6⟩ := parse_more pf st j hj t as vs cmd hv (by rw [hcm]; exact hc) he h0 (by rw [hp, hlen]) hs
      have hd' : decSegs (st.segs ++ [seg]) = some (done ++ [cmd]) :=
        decSegs_append _ _ _ _ hd (by simp [decSegs, g1])
      rw [← g2] at hd'
      have := ih cs (done ++ [cmd]) _ (j + (t :: as).length) h2 hn (fun g hg' => hg g (by simp [hg'])) (by omega)
        (by rw [g5, implied_idem, hcm]) (by rw [g6, hlen]) g3 g4 hd'
      simp only [List.flatten_cons, parseToks_append]
      simpa using this
    · cases h

theorem parse_items (pf : Bytes → Option Rat) (items : List PathItem) :
    ∀ (cmds done : List SvgCmd) (st : ParseSt) (j : Nat), itemsCmds pf items = some cmds →
      (∀ it ∈ items, ∀ g ∈ it.more, ∃ t r, g = t :: r ∧ startsPlain t = true) →
      st.err = false → st.argCount = 0 → decSegs st.segs = some done →
      let st' := parseToks pf st j (items.flatMap fun it => [it.letter] :: (it.args ++ it.more.flatten))
      st'.err = false ∧ st'.argCount = 0 ∧ decSegs st'.segs = some (done ++ cmds) := by
  induction items with
  | nil =>
    intro cmds done st j h _ he h0 hd
    simp [itemsCmds] at h; subst h
    simp [parseToks, he, h0, hd]
  | cons it r ih =>
    obtain ⟨c, as, gs⟩ := it
    intro cmds done st j h hg he h0 hd
    simp only [itemsCmds] at h
    split at h
    · rename_i cmd more cs h1 hm h2
      simp only [Option.some.injEq] at h; subst h
      obtain ⟨vs, hv, hc⟩ := Option.bind_eq_some_iff.mp h1
      obtain ⟨seg, g1, g2, g3, g4, g5, g6⟩ := parse_item pf st j c as vs cmd hv hc he h0
      have hd' : decSegs (st.segs ++ [seg]) = some (done ++ [cmd]) :=
        decSegs_append _ _ _ _ hd (by simp [decSegs, g1])
      rw [← g2] at hd'
      have hgs : let st' := parseToks pf (parseToks pf st j ([c] :: as)) (j + ([c] :: as).length) gs.flatten
          st'.err = false ∧ st'.argCount = 0 ∧ decSegs st'.segs = some ((done ++ [cmd]) ++ more) := by
        cases gs with
        | nil =>
          simp [moreCmds] at hm; subst hm
          simp only [List.flatten_nil, parseToks, List.append_nil]
          exact ⟨g3, g4, hd'⟩
        | cons g gs' =>
          have hn := (cmdOf_spec hc).1
          have hl := argVals_length hv
          have hne : as ≠ [] := by
            intro e0
            subst e0
            have hz : vs = [] := by simp [argVals] at hv; exact hv
            subst hz
            obtain ⟨t, r', e, -⟩ := hg _ List.mem_cons_self g (by simp)
            subst e
            simp only [moreCmds] at hm
            split at hm
            · rename_i cmd' cs' k1 k2
              obtain ⟨vs', hv', hc'⟩ := Option.bind_eq_some_iff.mp k1
              have a1 := (cmdOf_spec hc').1
              rw [implied_args, hn] at a1
              have a2 := argVals_length hv'
              simp only [Option.some.injEq] at a1
              simp at a2 a1
              omega
            · cases hm
          refine parse_mores pf c vs.length (g :: gs') more (done ++ [cmd]) _ _ hm hn (hg _ List.mem_cons_self) (by simp) (by rw [g5]) ?_ g3 g4 hd'
          rw [g6 hne, hl]
      obtain ⟨k1, k2, k3⟩ := hgs
      have := ih cs (done ++ [cmd] ++ more) _ (j + ([c] :: as).length + gs.flatten.length) h2 (fun it hit => hg it (by simp [hit])) k1 k2 k3
      have e : [c] :: (as ++ gs.flatten) = ([c] :: as) ++ gs.flatten := rfl
      have e2 : j + (([c] :: as).length + gs.flatten.length) = j + ([c] :: as).length + gs.flatten.length := by omega
      simp only [List.flatMap_cons]
      rw [e, parseToks_append, parseToks_append, List.length_append, e2]
      simpa only [List.append_assoc, List.singleton_append, List.cons_append, List.nil_append] using this
    · cases h

/-- Arguments stored while more are wanted. -/
theorem parse_part (pf : Bytes → Option Rat) (as : List Bytes) :
    ∀ (vs : List Rat) (st : ParseSt) (j : Nat), argVals pf as = some vs → st.err = false →
      as.length < st.argCount → (parseToks pf st j as).argCount ≠ 0 := by
  induction as with
  | nil => intro vs st j _ _ h; simp only [parseToks]; simp at h; omega
  | cons t r ih =>
    intro vs st j hv he hc
    simp only [argVals] at hv
    split at hv
    · rename_i v vs' h1 h2
      have hne : st.argCount ≠ 0 := by simp at hc; omega
      have hne1 : ¬ st.argCount - 1 = 0 := by simp at hc; omega
      have hstep : parseTok pf st j t =
          { st with seg := st.seg.setArg st.argJ v, argJ := st.argJ + 1, argCount := st.argCount - 1 } := by
        simp [parseTok, he, hne, h1, hne1]
      simp only [parseToks, hstep]
      refine ih vs' _ (j + 1) h2 he ?_
      simp at hc ⊢; omega
    · cases hv

/-- A command with too few arguments leaves the parser waiting. -/
theorem parse_incomplete (pf : Bytes → Option Rat) (st : ParseSt) (j : Nat) (c : UInt8) (n : Nat) (as : List Bytes) (vs : List Rat)
    (hc : cmdArgs c = some n) (hv : argVals pf as = some vs) (hl : as.length < n) (he : st.err = false) (h0 : st.argCount = 0) :
    (parseToks pf st j ([c] :: as)).argCount ≠ 0 := by
  have hd : c ≠ 45 ∧ ¬ (48 ≤ c ∧ c ≤ 57) := by
    constructor
    · rintro rfl; revert hc; simp [cmdArgs, cM, cm, cL, cl, cC, cc, cQ, cq, cH, ch, cV, cv, cZ, cz]
    · rintro ⟨h1, h2⟩
      have : cmdArgs c = none := by
        have a : c.toNat ≤ 57 := by simpa [UInt8.le_iff_toNat_le] using h2
        have key : ∀ d : UInt8, 57 < d.toNat → c ≠ d := by rintro d hd rfl; omega
        simp [cmdArgs, cM, cm, cL, cl, cC, cc, cQ, cq, cH, ch, cV, cv, cZ, cz, key]
      rw [this] at hc; cases hc
  obtain ⟨m, rfl⟩ : ∃ m, n = m + 1 := ⟨n - 1, by omega⟩
  have hstep : parseTok pf st j [c] = ({ st with seg := { cmd := c } } : ParseSt).setup (m + 1) := by
    simp [parseTok, he, h0, hd.1, hd.2, hc, ParseSt.setup]
  simp only [parseToks, hstep]
  exact parse_part pf as vs _ _ hv (by simp [ParseSt.setup, he]) (by simpa [ParseSt.setup] using hl)

theorem pathCmdSub_append (a b : Bytes) : pathCmdSub (a ++ b) = pathCmdSub a ++ pathCmdSub b := by
  simp [pathCmdSub]

theorem numChar_plain : ∀ n, n < 256 → isNumChar (UInt8.ofNat n) = true →
    (UInt8.ofNat n ≠ 44) ∧ (cmdArgs (UInt8.ofNat n)).isSome = false ∧ isFieldSpace (UInt8.ofNat n) = false := by
  decide +kernel

theorem numChar_plain' (c : UInt8) (h : isNumChar c = true) :
    c ≠ 44 ∧ (cmdArgs c).isSome = false ∧ isFieldSpace c = false := by
  have := numChar_plain c.toNat c.toNat_lt
  simp only [UInt8.ofNat_toNat] at this
  exact this h

theorem pathCmdSub_numeral (t : Bytes) (h : t.all isNumChar = true) : pathCmdSub t = t := by
  induction t with
  | nil => rfl
  | cons c t ih =>
    simp only [List.all_cons, Bool.and_eq_true] at h
    obtain ⟨h1, h2, -⟩ := numChar_plain' c h.1
    have : pathCmdSub (c :: t) = pathCmdSub [c] ++ pathCmdSub t := pathCmdSub_append [c] t
    rw [this, ih h.2]
    simp [pathCmdSub, h1, h2]

theorem fields_args (as : List Bytes) (h : ∀ t ∈ as, isNumeral t = true) (rest : Bytes) (toks : List Bytes)
    (hrest : ∀ cur, fieldsFrom cur rest = (if cur = [] then [] else [cur]) ++ toks) :
    fieldsFrom [] (pathCmdSub (joinComma as) ++ rest) = as ++ toks := by
  induction as with
  | nil => simpa [joinComma, pathCmdSub] using hrest []
  | cons a r ih =>
    have ha := h a (by simp)
    simp only [isNumeral, Bool.and_eq_true] at ha
    have hne : a ≠ [] := by
      intro e; subst e; simp at ha
    have hsp : ∀ c ∈ a, isFieldSpace c = false := fun c hc =>
      (numChar_plain' c (List.all_eq_true.mp ha.2 c hc)).2.2
    cases r with
    | nil =>
      simp only [joinComma]
      rw [pathCmdSub_numeral a ha.2, fieldsFrom_word _ _ _ hsp, hrest]
      simp [hne]
    | cons b r =>
      have e : joinComma (a :: b :: r) = a ++ (44 :: joinComma (b :: r)) := rfl
      have e2 : pathCmdSub (44 :: joinComma (b :: r)) = 32 :: pathCmdSub (joinComma (b :: r)) := by
        simp [pathCmdSub]
      rw [e, pathCmdSub_append, e2, pathCmdSub_numeral a ha.2, List.append_assoc, fieldsFrom_word _ _ _ hsp]
      simp only [List.cons_append, List.nil_append]
      rw [fieldsFrom_space, ih (fun t ht => h t (by simp [ht]))]
      simp [hne]

theorem letter_plain {c : UInt8} (h : (cmdArgs c).isSome = true) :
    c ≠ 44 ∧ isFieldSpace c = false := by
  have key : ∀ n, n < 256 → (cmdArgs (UInt8.ofNat n)).isSome = true →
      UInt8.ofNat n ≠ 44 ∧ isFieldSpace (UInt8.ofNat n) = false := by decide +kernel
  have := key c.toNat c.toNat_lt
  simp only [UInt8.ofNat_toNat] at this
  exact this h

theorem fields_items (items : List PathItem)
    (h : ∀ it ∈ items, (cmdArgs it.letter).isSome = true ∧ ∀ t ∈ it.args ++ it.more.flatten, isNumeral t = true) (cur : Bytes) :
    fieldsFrom cur (pathCmdSub (renderPath items)) =
      (if cur = [] then [] else [cur]) ++ items.flatMap fun it => [it.letter] :: (it.args ++ it.more.flatten) := by
  induction items generalizing cur with
  | nil => simp [renderPath, pathCmdSub, fieldsFrom]
  | cons it r ih =>
    obtain ⟨c, as, gs⟩ := it
    have hi := h ⟨c, as, gs⟩ (by simp)
    simp only at hi
    obtain ⟨hc1, hc2⟩ := letter_plain hi.1
    have e : renderPath (⟨c, as, gs⟩ :: r) = [c] ++ (joinComma (as ++ gs.flatten) ++ renderPath r) := by simp [renderPath]
    have e1 : pathCmdSub [c] = [32, c, 32] := by simp [pathCmdSub, hc1, hi.1]
    rw [e, pathCmdSub_append, pathCmdSub_append, e1]
    simp only [List.cons_append, List.nil_append]
    rw [fieldsFrom_space]
    congr 1
    have : c :: 32 :: (pathCmdSub (joinComma (as ++ gs.flatten)) ++ pathCmdSub (renderPath r)) =
        [c] ++ (32 :: (pathCmdSub (joinComma (as ++ gs.flatten)) ++ pathCmdSub (renderPath r))) := rfl
    rw [this, fieldsFrom_word _ _ _ (by simpa using hc2)]
    simp only [List.nil_append]
    rw [fieldsFrom_space, fields_args (as ++ gs.flatten) hi.2 _ _ (ih (fun it hit => h it (by simp [hit])))]
    simp

end Verif.Proof
