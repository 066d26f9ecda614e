import Verif.Props.Colors
/-
C21: transparency settings are validated and deduplicated.
-/
namespace Verif.Props
open Verif Verif.Model Verif.Spec Verif.Proof

/-- The blend modes of the documentation of `SetAlpha`. -/
def documentedModes : List Bytes :=
  [B "Normal", B "Multiply", B "Screen", B "Overlay", B "Darken", B "Lighten", B "ColorDodge", B "ColorBurn", B "HardLight", B "SoftLight", B "Difference", B "Exclusion", B "Hue", B "Saturation", B "Color", B "Luminosity"]

/-- The arguments that `SetAlpha` accepts. -/
def AlphaOk (a : Rat) (mode : Bytes) : Prop := 0 ≤ a ∧ a ≤ 1 ∧ (mode ∈ documentedModes ∨ mode = [])

instance (a : Rat) (mode : Bytes) : Decidable (AlphaOk a mode) := by unfold AlphaOk; infer_instance

theorem setAlpha_bad {f : Fpdf} {a : Rat} {mode : Bytes} (he : f.err = none) (h : ¬ AlphaOk a mode) : ∃ e, f.setAlpha a mode = f.assignErr e := by
  unfold Fpdf.setAlpha
  rw [if_neg (by simp [he])]
  by_cases hm : mode ∉ Fpdf.blendModes ∧ mode ≠ []
  · rw [if_pos hm]; exact ⟨_, rfl⟩
  · rw [if_neg hm]
    by_cases ha : a < 0 ∨ a > 1
    · rw [if_pos ha]; exact ⟨_, rfl⟩
    · refine absurd ⟨not_lt.mp fun h => ha (.inl h), not_lt.mp fun h => ha (.inr h), ?_⟩ h
      by_cases h0 : mode = []
      · exact .inr h0
      · refine .inl ?_
        by_cases h1 : mode ∈ Fpdf.blendModes
        · exact h1
        · exact absurd ⟨h1, h0⟩ hm

/-- The key of a transparency setting. -/
def alphaKey (a : Rat) (mode : Bytes) : Bytes := fmtF 3 a ++ B " " ++ mode

/-- What an accepted call does. -/
theorem setAlpha_ok {f : Fpdf} {a : Rat} {mode : Bytes} (he : f.err = none) (h : AlphaOk a mode) :
    (∃ pos, lookup (alphaKey a mode) f.r.blendMap = some pos ∧ f.setAlpha a mode = ({ f with r.alpha := a, r.blendMode := mode } : Fpdf).outf "/GS%d gs" [.d pos]) ∨
    (lookup (alphaKey a mode) f.r.blendMap = none ∧ f.setAlpha a mode =
      ({ f with r.alpha := a, r.blendMode := mode, r.blendList := f.r.blendList ++ [{ strokeStr := fmtF 3 a, fillStr := fmtF 3 a, modeStr := mode }],
                r.blendMap := Model.insert (alphaKey a mode) (f.r.blendList.length + 1) f.r.blendMap } : Fpdf).outf "/GS%d gs" [.d (f.r.blendList.length + 1 : Nat)]) := by
  have e1 : sprintf "%.3f" [.f a] = fmtF 3 a := by
    have e : sprintf "%.3f" [.f a] = fmtF 3 a ++ [] := sprintf_of_render rfl
    rw [e, List.append_nil]
  have e2 : sprintf "%s %s" [.s (fmtF 3 a), .s mode] = alphaKey a mode := by
    have e : sprintf "%s %s" [.s (fmtF 3 a), .s mode] = fmtF 3 a ++ (B " " ++ (mode ++ [])) := sprintf_of_render rfl
    rw [e, List.append_nil, alphaKey, List.append_assoc]
  have hm : ¬ (mode ∉ Fpdf.blendModes ∧ mode ≠ []) := by
    rintro ⟨h1, h2⟩
    exact h.2.2.elim h1 h2
  unfold Fpdf.setAlpha
  rw [if_neg (by simp [he]), if_neg hm, if_neg (by rintro (h' | h'); exacts [absurd h.1 (not_le.mpr h'), absurd h.2.1 (not_le.mpr h')])]
  dsimp only
  rw [e1, e2]
  cases hl : lookup (alphaKey a mode) f.r.blendMap with
  | some pos => exact .inl ⟨pos, rfl, rfl⟩
  | none => exact .inr ⟨rfl, rfl⟩

/-- **C21** `SetAlpha` accepts exactly the values from 0 to 1 and the documented blend modes or none. -/
theorem C21_valid (E : Ext) (cb : Cb) (f : Fpdf) (a : Rat) (mode : Bytes) (he : f.err = none) : (f.exec E cb (.setAlpha a mode)).err = none ↔ AlphaOk a mode := by
  show (f.setAlpha a mode).err = none ↔ _
  constructor
  · intro h
    by_contra hn
    obtain ⟨e, h'⟩ := setAlpha_bad he hn
    rw [h'] at h
    simp [Fpdf.assignErr] at h
  · intro h
    rcases setAlpha_ok he h with ⟨p, -, h'⟩ | ⟨-, h'⟩ <;> rw [h'] <;> unfold Fpdf.outf Fpdf.out <;> (repeat' split) <;> exact he

/-- **C21** `GetAlpha` returns the arguments of the last `SetAlpha` that was accepted. -/
theorem C21_get (E : Ext) (cb : Cb) (f : Fpdf) (a : Rat) (mode : Bytes) (he : f.err = none) (h : AlphaOk a mode) : (f.exec E cb (.setAlpha a mode)).getAlpha = (a, mode) := by
  show (f.setAlpha a mode).getAlpha = _
  rcases setAlpha_ok he h with ⟨p, -, h'⟩ | ⟨-, h'⟩ <;> rw [h'] <;> unfold Fpdf.outf Fpdf.out Fpdf.getAlpha <;> (repeat' split) <;> rfl

/-- **C21** A call that is refused changes nothing. -/
theorem C21_refused (E : Ext) (cb : Cb) (f : Fpdf) (a : Rat) (mode : Bytes) (h : f.err = none → ¬ AlphaOk a mode) : ∃ e, f.exec E cb (.setAlpha a mode) = { f with err := e } := by
  show ∃ e, f.setAlpha a mode = _
  cases he : f.err with
  | some e => exact ⟨some e, by unfold Fpdf.setAlpha; rw [if_pos (by simp [he]), ← he]⟩
  | none =>
    obtain ⟨e, h'⟩ := setAlpha_bad he (h he)
    exact ⟨(f.assignErr e).err, by rw [h']; rfl⟩

theorem alpha_data : DataRel (fun f g : Fpdf => (g.r.alpha, g.r.blendMode) = (f.r.alpha, f.r.blendMode)) where
  trans := fun f g h a b => b.trans a
  stp := fun f g hb => by
    have h := congrArg (fun f : Fpdf => (f.r.alpha, f.r.blendMode)) hb
    exact h

/-- A call of `SetAlpha`. -/
def isAlpha : Op → Bool
  | .setAlpha _ _ => true
  | _ => false

theorem without_open (bad : Op → Bool) : OpenGuard (without bad) := ⟨fun _ _ _ h => ⟨h.1, h.2.1⟩, fun _ _ => trivial⟩

theorem alpha_kept (E : Ext) (cb : Cb) (f : Fpdf) (op : Op) (hs : staysOnPage op = true) (hb : isAlpha op = false) : ((f.exec E cb op).r.alpha, (f.exec E cb op).r.blendMode) = (f.r.alpha, f.r.blendMode) :=
  foot_get (fun f => (f.r.alpha, f.r.blendMode)) E cb f op hs (fun g => by cases op <;> first | rfl | (simp [isAlpha] at hb))

/-- **C21** Nothing else changes it, not even a new page. -/
theorem C21_kept (E : Ext) (f g : Fpdf) (h : Reach E (without isAlpha) f g) : g.getAlpha = f.getAlpha :=
  (alpha_data.reach (without_open isAlpha) (fun cb f op ho => alpha_kept E cb f op (helper_stays ho) (by cases op <;> first | rfl | (simp [helper] at ho)))
    (fun f cb op hg hs => alpha_kept E cb f op hs hg.2.2) h).2

/-! ### The registered graphics states -/

/-- The key of a registered setting. -/
def entKey (x : BlendMode) : Bytes := x.strokeStr ++ B " " ++ x.modeStr

/-- The registered settings are numbered 1, 2, …, all different. -/
structure BlendOk (f : Fpdf) : Prop where
  keys : ∀ k p, lookup k f.r.blendMap = some p → ∃ (i : Nat) (x : BlendMode), p = i + 1 ∧ f.r.blendList[i]? = some x ∧ k = entKey x
  ents : ∀ (i : Nat) (x : BlendMode), f.r.blendList[i]? = some x → lookup (entKey x) f.r.blendMap = some (i + 1) ∧ ∃ a, AlphaOk a x.modeStr ∧ x.strokeStr = fmtF 3 a ∧ x.fillStr = fmtF 3 a

structure AlphaLe (f g : Fpdf) : Prop where
  ents : f.r.blendList <+: g.r.blendList
  ok : BlendOk f → BlendOk g

theorem blend_congr {f g : Fpdf} (h1 : g.r.blendList = f.r.blendList) (h2 : g.r.blendMap = f.r.blendMap) : AlphaLe f g :=
  ⟨by rw [h1], fun o => ⟨by rw [h1, h2]; exact o.keys, by rw [h1, h2]; exact o.ents⟩⟩

theorem blend_data : DataRel AlphaLe where
  trans := fun f g h a b => ⟨a.ents.trans b.ents, fun o => b.ok (a.ok o)⟩
  stp := fun f g hb => by
    have h1 := congrArg (fun f : Fpdf => f.r.blendList) hb
    have h2 := congrArg (fun f : Fpdf => f.r.blendMap) hb
    exact blend_congr h1 h2

theorem outf_r (f : Fpdf) (s : String) (as : List Arg) : (f.outf s as).r = f.r := by
  unfold Fpdf.outf Fpdf.out
  (repeat' split) <;> rfl

theorem split_blank (u v m n : Bytes) (hu : (32 : UInt8) ∉ u) (hv : (32 : UInt8) ∉ v) (h : u ++ 32 :: m = v ++ 32 :: n) : u = v ∧ m = n := by
  induction u generalizing v with
  | nil =>
    cases v with
    | nil => simpa using h
    | cons c v => simp at h; exact absurd (by rw [h.1]; simp) hv
  | cons c u ih =>
    cases v with
    | nil => simp at h; exact absurd (by rw [h.1]; simp) hu
    | cons d v =>
      simp only [List.cons_append, List.cons.injEq] at h
      obtain ⟨rfl, h⟩ := h
      obtain ⟨rfl, rfl⟩ := ih v (fun h => hu (List.mem_cons_of_mem _ h)) (fun h => hv (List.mem_cons_of_mem _ h)) h
      exact ⟨rfl, rfl⟩

theorem fmtF_noblank (n : Nat) (a : Rat) : (32 : UInt8) ∉ fmtF n a := fun h => by
  have := fmtF_regular n a 32 h
  exact absurd this (by decide)

theorem alphaKey_inj {a b : Rat} {m n : Bytes} (h : alphaKey a m = alphaKey b n) : fmtF 3 a = fmtF 3 b ∧ m = n := by
  unfold alphaKey at h
  rw [List.append_assoc, List.append_assoc] at h
  exact split_blank _ _ _ _ (fmtF_noblank 3 a) (fmtF_noblank 3 b) h

theorem blend_own (E : Ext) (cb : Cb) (f : Fpdf) (op : Op) (hs : staysOnPage op = true) : AlphaLe f (f.exec E cb op) := by
  by_cases hu : ∃ a m, op = .setAlpha a m
  · obtain ⟨a, m, rfl⟩ := hu
    by_cases hr : f.err = none → ¬ AlphaOk a m
    · obtain ⟨e, h⟩ := C21_refused E cb f a m hr
      exact blend_congr (by rw [h]) (by rw [h])
    · rw [Classical.not_imp, not_not] at hr
      obtain ⟨he, hok⟩ := hr
      show AlphaLe f (f.setAlpha a m)
      rcases setAlpha_ok he hok with ⟨p, -, h'⟩ | ⟨hl, h'⟩
      · exact blend_congr (by rw [h', outf_r]) (by rw [h', outf_r])
      · rw [h']
        refine ⟨by rw [outf_r]; exact List.prefix_append _ _, fun o => ⟨?_, ?_⟩⟩
        · rw [outf_r]
          dsimp only
          intro k p hk
          rw [lookup_insert] at hk
          split at hk
          · next e =>
            cases hk
            exact ⟨f.r.blendList.length, { strokeStr := fmtF 3 a, fillStr := fmtF 3 a, modeStr := m }, rfl, by simp, e⟩
          · obtain ⟨i, x, h1, h2, h3⟩ := o.keys k p hk
            exact ⟨i, x, h1, by rw [List.getElem?_append_left (List.getElem?_eq_some_iff.1 h2).1]; exact h2, h3⟩
        · rw [outf_r]
          dsimp only
          intro i x hx
          rcases Nat.lt_trichotomy i f.r.blendList.length with hlt | rfl | hgt
          · rw [List.getElem?_append_left hlt] at hx
            obtain ⟨h1, h2⟩ := o.ents i x hx
            refine ⟨?_, h2⟩
            rw [lookup_insert, if_neg]
            · exact h1
            · intro e
              rw [e, hl] at h1; cases h1
          · rw [List.getElem?_append_right (Nat.le_refl _), Nat.sub_self] at hx
            simp only [List.getElem?_cons_zero, Option.some.injEq] at hx
            subst hx
            exact ⟨by rw [lookup_insert]; exact if_pos rfl, a, hok, rfl, rfl⟩
          · rw [List.getElem?_eq_none (by rw [List.length_append]; simp; omega)] at hx
            cases hx
  · exact blend_congr (foot_get (fun f => f.r.blendList) E cb f op hs (fun f => by cases op <;> first | rfl | exact absurd ⟨_, _, rfl⟩ hu))
      (foot_get (fun f => f.r.blendMap) E cb f op hs (fun f => by cases op <;> first | rfl | exact absurd ⟨_, _, rfl⟩ hu))

theorem blend_reach {E : Ext} {G : Guard} (hG : OpenGuard G) {f g : Fpdf} (h : Reach E G f g) : AlphaLe f g :=
  (blend_data.reach hG (fun cb f op ho => blend_own E cb f op (helper_stays ho)) (fun f cb op _ hs => blend_own E cb f op hs) h).2

theorem new_blend (o u s : Bytes) (sz : Size) : BlendOk (Fpdf.new o u s sz) := by
  have h1 : (Fpdf.new o u s sz).r.blendList = [] := new_get (fun f => f.r.blendList) (fun _ => rfl) o u s sz
  have h2 : (Fpdf.new o u s sz).r.blendMap = [] := new_get (fun f => f.r.blendMap) (fun _ => rfl) o u s sz
  exact ⟨fun k p h => (by rw [h2] at h; cases h), fun i x h => (by rw [h1] at h; cases h)⟩

/-- A line that selects a graphics state. -/
def SelectsGs (line : Bytes) (n : Nat) : Prop := instrs line = [([.name (B "GS" ++ natDec n)], B "gs")]

theorem selectsGs (n : Nat) : SelectsGs (sprintf "/GS%d gs" [.d n] ++ [10]) n := by
  have e : intDec (n : Int) = natDec n := by simp [intDec]
  have h : Frag (sprintf "/GS%d gs" [.d n]) [([.name (B "GS" ++ intDec n)], B "gs")] := frag_sprintf rfl rfl
  rw [e] at h
  exact (h 10 (by decide)).instrs

/-- The setting that has a number. -/
theorem setAlpha_sel (f : Fpdf) (ok : BlendOk f) (a : Rat) (mode : Bytes) (he : f.err = none) (h : AlphaOk a mode) (hp : f.page > 0) (hs : f.state = 2) :
    ∃ (i : Nat) (x : BlendMode) (line : Bytes), (f.setAlpha a mode).pages = modifyAt f.page (· ++ line) f.pages ∧ SelectsGs line (i + 1) ∧ (f.setAlpha a mode).r.blendList[i]? = some x ∧ entKey x = alphaKey a mode := by
  rcases setAlpha_ok he h with ⟨p, hl, h'⟩ | ⟨hl, h'⟩
  · obtain ⟨i, x, rfl, h2, h3⟩ := ok.keys _ _ hl
    refine ⟨i, x, sprintf "/GS%d gs" [.d ((i + 1 : Nat) : Int)] ++ [10], ?_, selectsGs _, by rw [h', outf_r]; exact h2, h3.symm⟩
    rw [h']
    unfold Fpdf.outf Fpdf.out
    simp [hp, hs]
  · refine ⟨f.r.blendList.length, { strokeStr := fmtF 3 a, fillStr := fmtF 3 a, modeStr := mode }, sprintf "/GS%d gs" [.d ((f.r.blendList.length + 1 : Nat) : Int)] ++ [10], ?_, selectsGs _,
      by rw [h', outf_r]; simp, rfl⟩
    rw [h']
    unfold Fpdf.outf Fpdf.out
    simp [hp, hs]

theorem BlendOk.content {f : Fpdf} (ok : BlendOk f) {i : Nat} {x : BlendMode} (hx : f.r.blendList[i]? = some x) {a : Rat} {mode : Bytes} (h : entKey x = alphaKey a mode) :
    x.strokeStr = fmtF 3 a ∧ x.fillStr = fmtF 3 a ∧ x.modeStr = mode := by
  obtain ⟨-, b, -, h2, h3⟩ := ok.ents i x hx
  have : alphaKey b x.modeStr = alphaKey a mode := by rw [← h]; unfold entKey alphaKey; rw [h2]
  obtain ⟨e1, e2⟩ := alphaKey_inj this
  exact ⟨h2.trans e1, h3.trans e1, e2⟩

/-- **C21** Settings made on pages of a document at any two times share one graphics state exactly if they are the same blend mode and, to three decimals, the same value. -/
theorem C21_shared (E : Ext) (cb cb' : Cb) (o u s : Bytes) (sz : Size) (f0 f : Fpdf) (a b : Rat) (mode mode' : Bytes) (h0 : Reach E noClose (Fpdf.new o u s sz) f0)
    (he0 : f0.err = none) (hp0 : f0.page > 0) (hs0 : f0.state = 2) (ha : AlphaOk a mode) (h : Reach E noClose (f0.exec E cb (.setAlpha a mode)) f)
    (he : f.err = none) (hp : f.page > 0) (hs : f.state = 2) (hb : AlphaOk b mode') :
    ∃ line line' n n', (f0.exec E cb (.setAlpha a mode)).pages = modifyAt f0.page (· ++ line) f0.pages ∧ SelectsGs line n ∧
      (f.exec E cb' (.setAlpha b mode')).pages = modifyAt f.page (· ++ line') f.pages ∧ SelectsGs line' n' ∧ (n = n' ↔ fmtF 3 a = fmtF 3 b ∧ mode = mode') := by
  have ok0 := (blend_reach noClose_open h0).ok (new_blend o u s sz)
  have ok1 : BlendOk (f0.exec E cb (.setAlpha a mode)) := (blend_own E cb f0 (.setAlpha a mode) rfl).ok ok0
  have ok2 := (blend_reach noClose_open h).ok ok1
  have le2 := (blend_reach noClose_open h).ents.trans (blend_own E cb' f (.setAlpha b mode') rfl).ents
  have ok3 := (blend_own E cb' f (.setAlpha b mode') rfl).ok ok2
  obtain ⟨i, x, line, h1, h2, h3, h4⟩ := setAlpha_sel f0 ok0 a mode he0 ha hp0 hs0
  obtain ⟨j, y, line', g1, g2, g3, g4⟩ := setAlpha_sel f ok2 b mode' he hb hp hs
  refine ⟨line, line', i + 1, j + 1, h1, h2, g1, g2, ?_⟩
  have hx : (f.exec E cb' (.setAlpha b mode')).r.blendList[i]? = some x := by
    obtain ⟨t, ht⟩ := le2
    rw [← ht, List.getElem?_append_left (by exact (List.getElem?_eq_some_iff.1 h3).1)]; exact h3
  obtain ⟨c1, -, c2⟩ := ok3.content hx h4
  obtain ⟨d1, -, d2⟩ := ok3.content g3 g4
  constructor
  · intro e
    have e : i = j := by omega
    subst e
    have : (f.exec E cb' (.setAlpha b mode')).r.blendList[i]? = some y := g3
    rw [hx] at this
    cases this
    exact ⟨c1.symm.trans d1, c2.symm.trans d2⟩
  · rintro ⟨e1, e2⟩
    have ex := (ok3.ents i x hx).1
    have ey := (ok3.ents j y g3).1
    have ek : entKey x = entKey y := by rw [h4, g4]; unfold alphaKey; rw [e1, e2]
    rw [ek] at ex
    have := ex.symm.trans ey
    simpa using this

/-- **C21** `SetAlpha` on a page writes one line, which selects a graphics state; in the file this has the value set, to three decimals, for filling and for stroking, and the blend mode. -/
theorem C21_file (E : Ext) (cb cb' : Cb) (o u s : Bytes) (sz : Size) (f0 f : Fpdf) (wf : Bool) (a : Rat) (mode : Bytes) (h0 : Reach E pagesFirst (Fpdf.new o u s sz) f0)
    (he : f0.err = none) (hp0 : f0.page > 0) (hs0 : f0.state = 2) (ha : AlphaOk a mode) (h1 : Reach E pagesFirst f0 (f0.exec E cb (.setAlpha a mode))) (hf : Reach E pagesFirst (f0.exec E cb (.setAlpha a mode)) f)
    (hcb : CbReach E pagesFirst cb') (hok : errOf E cb' f wf = none) (hsize : (fileOf E cb' f wf).length < 10 ^ 10) :
    ∃ version items root info dict n k line q v, (f0.exec E cb (.setAlpha a mode)).pages = modifyAt f0.page (· ++ line) f0.pages ∧ SelectsGs line n ∧
      IsPdf (fileOf E cb' f wf) [] version items root info ∧ (2, Body.plain (B "<<\n" ++ dict ++ B ">>\n")) ∈ items ∧ Names dict (B "ExtGState") (B "GS" ++ natDec n) k ∧
      (k, Body.plain (B "<</Type /ExtGState /ca " ++ v ++ B " /CA " ++ v ++ B " /BM /" ++ mode ++ B ">>\n")) ∈ items ∧ readReal v = some q ∧ 0 ≤ q ∧ q ≤ 1 ∧ |q - a| ≤ 1 / 2000 := by
  have hall := (h0.trans h1).trans hf
  have ok0 := (blend_reach pagesFirst_open h0).ok (new_blend o u s sz)
  obtain ⟨last, v, A, P, M, T, d, items, hp, hb⟩ := printed_pf hall hcb hok
  have hpdf := hp.written.pdf hsize
  rw [hb] at hpdf
  have hn : last.n = 2 := hp.op.n.trans (pf_fresh hall).n
  have hl : AlphaLe (f0.exec E cb (.setAlpha a mode)) last := last_data (G := pagesFirst) pagesFirst_open blend_data (fun cb f op ho => blend_own E cb f op (helper_stays ho)) (fun f cb op _ hs => blend_own E cb f op hs)
    hf hcb hp.eq hp.page1
  have okl := hl.ok ((blend_own E cb f0 (.setAlpha a mode) rfl).ok ok0)
  obtain ⟨i, x, line, e1, e2, e3, e4⟩ := setAlpha_sel f0 ok0 a mode he ha hp0 hs0
  have hx : last.r.blendList[i]? = some x := by
    obtain ⟨t, ht⟩ := hl.ents
    rw [← ht, List.getElem?_append_left (by exact (List.getElem?_eq_some_iff.1 e3).1)]; exact e3
  obtain ⟨c1, c2, c3⟩ := okl.content hx e4
  obtain ⟨k, k1, k2⟩ := hp.written.gs hp.state hn hx
  obtain ⟨q, q1, q2, q3, q4⟩ := fmt3_unit a ha.1 ha.2.1
  unfold blendBody at k2
  rw [c1, c2, c3] at k2
  exact ⟨v, items, _, _, d, i + 1, k, line, q, fmtF 3 a, e1, e2, hpdf, hp.written.mem_dict, k1, k2, q1, q2, q3, q4⟩

/-- Non-vacuity: a document with two settings on two pages. -/
def glassy : Fpdf := after (Fpdf.new [] [] [] {}) [.addPage, .setAlpha (1 / 2) (B "Multiply"), .addPage]

example : Reach {} pagesFirst (Fpdf.new [] [] [] {}) glassy ∧ glassy.err = none ∧ glassy.page > 0 ∧ glassy.state = 2 ∧ AlphaOk (1 / 2) (B "Multiply") ∧ AlphaOk (1 / 3) [] ∧
    Reach {} pagesFirst glassy (glassy.exec {} {} (.setAlpha (1 / 3) [])) ∧ errOf {} {} (glassy.exec {} {} (.setAlpha (1 / 3) [])) false = none ∧
    (fileOf {} {} (glassy.exec {} {} (.setAlpha (1 / 3) [])) false).length < 10 ^ 10 :=
  ⟨reach_after pfB_ok _ _ _ (Reach.refl _) (by decide +kernel), by decide +kernel, by decide +kernel, by decide +kernel, by decide +kernel, by decide +kernel,
    reach_after pfB_ok _ [.setAlpha (1 / 3) []] _ (Reach.refl _) (by decide +kernel), by decide +kernel, by decide +kernel⟩

/-- The instructions of a text that select a graphics state. -/
def gsOps (t : Bytes) : List Instr := (instrs t).filter fun i => i.2 = B "gs"

/-- **C21** refuted for new pages: `GetAlpha` still returns the setting there, but the page starts without one, opaque. -/
theorem C21_page_false : glassy.getAlpha = (1 / 2, B "Multiply") ∧ glassy.pageCount = 2 ∧ (glassy.pages.drop 1).map (fun t => (gsOps t).length) = [1, 0] := by
  refine ⟨?_, ?_, ?_⟩ <;> decide +kernel

/-- `t` occurs in `s`. -/
def occursIn (t : Bytes) : Bytes → Bool
  | [] => t.isEmpty
  | c :: s => t.isPrefixOf (c :: s) || occursIn t s

/-- **C21** refuted for the empty blend mode, documented to be replaced by "Normal": the file has an empty name for it. -/
theorem C21_empty_false : AlphaOk (1 / 2) [] ∧ occursIn (B "/BM />>") (fileOf {} {} (after (Fpdf.new [] [] [] {}) [.addPage, .setAlpha (1 / 2) []]) false) = true ∧
    occursIn (B "Normal") (fileOf {} {} (after (Fpdf.new [] [] [] {}) [.addPage, .setAlpha (1 / 2) []]) false) = false := by
  refine ⟨?_, ?_, ?_⟩ <;> decide +kernel

end Verif.Props
