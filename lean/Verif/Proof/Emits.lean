import Verif.Model.Machine
import Verif.Proof.Frag
import Verif.Spec.Attrs
/-
What drawing does to a document: it appends complete lines of content to the current page (or, between pages, to the document buffer) and changes
nothing of the document's structure (`Frm`); the lines are instructions that keep nesting and resources in order (`Emits`).
-/
namespace Verif.Proof
open Verif Verif.Model Verif.Spec

/-- The structure of the document, which drawing operations leave alone. -/
def frameOf (f : Fpdf) :=
  (f.state, f.page, f.n, f.offsets, f.k, f.unitStr, f.inHeader, f.inFooter, f.log, f.p.defOrientation, f.p.curOrientation, f.p.defPageSize,
    f.p.curPageSize, f.p.pageSizes, f.p.w, f.p.h, f.p.wPt, f.p.hPt, f.m.protect.rc4n)

/-- `g`'s content is `f`'s with `b` appended at the place `out` writes to. -/
def App (f g : Fpdf) (b : Bytes) : Prop :=
  g.pages = (if f.state = 2 then modifyAt f.page (· ++ b) f.pages else f.pages) ∧
  g.buffer = (if f.state = 2 then f.buffer else f.buffer ++ b)

structure Frm (f g : Fpdf) : Prop where
  frame : frameOf g = frameOf f
  app : ∃ b, App f g b
  latch : f.err ≠ none → g.err ≠ none
  geo : f.p.pageBreakTrigger = f.p.h - f.p.bMargin → g.p.pageBreakTrigger = g.p.h - g.p.bMargin

theorem modifyAt_id {α} (i : Nat) (l : List α) (g : α → α) (h : ∀ a, g a = a) : modifyAt i g l = l := by
  induction l generalizing i with
  | nil => simp [modifyAt]
  | cons a l ih => cases i <;> simp [modifyAt, h, ih]

theorem modifyAt_modifyAt {α} (i : Nat) (l : List α) (g h : α → α) :
    modifyAt i h (modifyAt i g l) = modifyAt i (fun a => h (g a)) l := by
  induction l generalizing i with
  | nil => simp [modifyAt]
  | cons a l ih => cases i <;> simp [modifyAt, ih]

@[simp] theorem modifyAt_length {α} (i : Nat) (l : List α) (g : α → α) : (modifyAt i g l).length = l.length := by
  induction l generalizing i with
  | nil => simp [modifyAt]
  | cons a l ih => cases i <;> simp [modifyAt, ih]

theorem modifyAt_getElem? {α} (i j : Nat) (l : List α) (g : α → α) :
    (modifyAt i g l)[j]? = if j = i then (l[j]?).map g else l[j]? := by
  induction l generalizing i j with
  | nil => simp [modifyAt]
  | cons a l ih =>
    cases i with
    | zero => cases j <;> simp [modifyAt]
    | succ i => cases j <;> simp [modifyAt, ih]

theorem App.refl (f : Fpdf) : App f f [] := by
  unfold App
  split <;> simp [modifyAt_id]

theorem frame_state {f g : Fpdf} (h : frameOf g = frameOf f) : g.state = f.state := congrArg (·.1) h
theorem frame_page {f g : Fpdf} (h : frameOf g = frameOf f) : g.page = f.page := congrArg (·.2.1) h
theorem frame_n {f g : Fpdf} (h : frameOf g = frameOf f) : g.n = f.n := congrArg (·.2.2.1) h
theorem frame_offsets {f g : Fpdf} (h : frameOf g = frameOf f) : g.offsets = f.offsets := congrArg (·.2.2.2.1) h
theorem frame_k {f g : Fpdf} (h : frameOf g = frameOf f) : g.k = f.k := congrArg (·.2.2.2.2.1) h
theorem frame_inHeader {f g : Fpdf} (h : frameOf g = frameOf f) : g.inHeader = f.inHeader := congrArg (·.2.2.2.2.2.2.1) h
theorem frame_inFooter {f g : Fpdf} (h : frameOf g = frameOf f) : g.inFooter = f.inFooter := congrArg (·.2.2.2.2.2.2.2.1) h
theorem frame_log {f g : Fpdf} (h : frameOf g = frameOf f) : g.log = f.log := congrArg (·.2.2.2.2.2.2.2.2.1) h
theorem frame_defO {f g : Fpdf} (h : frameOf g = frameOf f) : g.p.defOrientation = f.p.defOrientation := congrArg (·.2.2.2.2.2.2.2.2.2.1) h
theorem frame_curO {f g : Fpdf} (h : frameOf g = frameOf f) : g.p.curOrientation = f.p.curOrientation :=
  congrArg (·.2.2.2.2.2.2.2.2.2.2.1) h
theorem frame_defS {f g : Fpdf} (h : frameOf g = frameOf f) : g.p.defPageSize = f.p.defPageSize :=
  congrArg (·.2.2.2.2.2.2.2.2.2.2.2.1) h
theorem frame_curS {f g : Fpdf} (h : frameOf g = frameOf f) : g.p.curPageSize = f.p.curPageSize :=
  congrArg (·.2.2.2.2.2.2.2.2.2.2.2.2.1) h
theorem frame_sizes {f g : Fpdf} (h : frameOf g = frameOf f) : g.p.pageSizes = f.p.pageSizes :=
  congrArg (·.2.2.2.2.2.2.2.2.2.2.2.2.2.1) h
theorem frame_w {f g : Fpdf} (h : frameOf g = frameOf f) : g.p.w = f.p.w := congrArg (·.2.2.2.2.2.2.2.2.2.2.2.2.2.2.1) h
theorem frame_h {f g : Fpdf} (h : frameOf g = frameOf f) : g.p.h = f.p.h := congrArg (·.2.2.2.2.2.2.2.2.2.2.2.2.2.2.2.1) h
theorem frame_wPt {f g : Fpdf} (h : frameOf g = frameOf f) : g.p.wPt = f.p.wPt := congrArg (·.2.2.2.2.2.2.2.2.2.2.2.2.2.2.2.2.1) h
theorem frame_hPt {f g : Fpdf} (h : frameOf g = frameOf f) : g.p.hPt = f.p.hPt := congrArg (·.2.2.2.2.2.2.2.2.2.2.2.2.2.2.2.2.2.1) h
theorem frame_rc {f g : Fpdf} (h : frameOf g = frameOf f) : g.m.protect.rc4n = f.m.protect.rc4n := congrArg (·.2.2.2.2.2.2.2.2.2.2.2.2.2.2.2.2.2.2) h

theorem App.trans {f g h : Fpdf} {a b : Bytes} (hf : frameOf g = frameOf f) (h1 : App f g a) (h2 : App g h b) : App f h (a ++ b) := by
  unfold App at *
  rw [frame_state hf, frame_page hf] at h2
  by_cases hs : f.state = 2
  · simp only [hs, if_true] at *
    rw [h2.1, h1.1, modifyAt_modifyAt, h2.2, h1.2]
    simp
  · simp only [hs, if_false] at *
    rw [h2.1, h1.1, h2.2, h1.2]
    simp

theorem App.out (f : Fpdf) (s : Bytes) : App f (f.out s) (s ++ [10]) := by
  unfold App Fpdf.out
  by_cases hs : f.state = 2 <;> simp [hs]

theorem Frm.refl (f : Fpdf) : Frm f f := ⟨rfl, ⟨[], App.refl f⟩, id, id⟩

theorem Frm.trans {f g h : Fpdf} (h1 : Frm f g) (h2 : Frm g h) : Frm f h :=
  ⟨h2.frame.trans h1.frame, by
    obtain ⟨a, ha⟩ := h1.app
    obtain ⟨b, hb⟩ := h2.app
    exact ⟨_, ha.trans h1.frame hb⟩, fun he => h2.latch (h1.latch he), fun hg => h2.geo (h1.geo hg)⟩

/-- Everything `Frm` looks at, except the error. -/
def quiet (f : Fpdf) := (frameOf f, f.pages, f.buffer, f.p.pageBreakTrigger, f.p.bMargin)

theorem quiet_app {f g : Fpdf} (h : quiet g = quiet f) : App f g [] := by
  have h1 : g.pages = f.pages := congrArg (·.2.1) h
  have h2 : g.buffer = f.buffer := congrArg (·.2.2.1) h
  unfold App
  rw [h1, h2]
  split <;> simp [modifyAt_id]

/-- A change of other parts of the state. -/
theorem Frm.upd {f g : Fpdf} (h : quiet g = quiet f) (he : f.err ≠ none → g.err ≠ none) : Frm f g := by
  refine ⟨congrArg (·.1) h, ⟨[], quiet_app h⟩, he, fun hg => ?_⟩
  have h1 : g.p.pageBreakTrigger = f.p.pageBreakTrigger := congrArg (·.2.2.2.1) h
  have h2 : g.p.bMargin = f.p.bMargin := congrArg (·.2.2.2.2) h
  rw [h1, h2, frame_h (congrArg (·.1) h)]
  exact hg

theorem frame_out (f : Fpdf) (s : Bytes) : frameOf (f.out s) = frameOf f := by
  unfold Fpdf.out; split <;> rfl

theorem Frm.out (f : Fpdf) (s : Bytes) : Frm f (f.out s) :=
  ⟨frame_out f s, ⟨_, App.out f s⟩, by unfold Fpdf.out; split <;> exact id, by unfold Fpdf.out; split <;> exact id⟩

theorem Frm.ite {f g h : Fpdf} {c : Prop} [Decidable c] (h1 : c → Frm f g) (h2 : ¬ c → Frm f h) : Frm f (if c then g else h) := by
  split
  · exact h1 ‹_›
  · exact h2 ‹_›

theorem Frm.foldl {α} (F : Fpdf → α → Fpdf) (h : ∀ f a, Frm f (F f a)) (l : List α) (f : Fpdf) : Frm f (l.foldl F f) := by
  induction l generalizing f with
  | nil => exact Frm.refl f
  | cons a l ih => exact (h f a).trans (ih _)

/-! ### Resources and the invariant on what is written -/

/-- The part of the state that determines which resources exist. -/
structure Regs where
  blend : Nat
  grad : Nat
  layers : Nat
  spot : List (Bytes × SpotColor)
  fonts : List (Bytes × FontDef)
  images : List (Bytes × Nat)
  heap : List ImageInfo
  tpl : List (Bytes × Tmpl)

/-- The registries of a document. -/
def regsOf (f : Fpdf) : Regs :=
  ⟨f.r.blendList.length, f.r.gradientList.length, f.layer.list.length, f.r.spotColorMap, f.t.fonts, f.r.images, f.r.imgHeap, f.r.templates⟩

/-- The name `name` used by operator `op` is that of a registered resource. -/
def resolves (r : Regs) (op name : Bytes) : Prop :=
  if op = B "gs" then ∃ i, 1 ≤ i ∧ i ≤ r.blend ∧ name = B "GS" ++ natDec i
  else if op = B "sh" then ∃ i, 1 ≤ i ∧ i ≤ r.grad ∧ name = B "Sh" ++ natDec i
  else if op = B "BDC" then name = B "OC" ∨ ∃ i, i < r.layers ∧ name = B "OC" ++ natDec i
  else if op = B "CS" ∨ op = B "cs" then ∃ k c, lookup k r.spot = some c ∧ name = B "CS" ++ natDec c.id
  else if op = B "Tf" then name = B "F" ∨ ∃ k d, lookup k r.fonts = some d ∧ name = B "F" ++ d.i
  else if op = B "Do" then
    (∃ k p im, lookup k r.images = some p ∧ r.heap[p]? = some im ∧ name = B "I" ++ im.i) ∨
    (∃ k t, lookup k r.tpl = some t ∧ name = B "TPL" ++ k)
  else False

/-- Every name of the instruction is that of a registered resource. -/
def Resolved (r : Regs) (i : Instr) : Prop := ∀ nm ∈ Instr.names i, resolves r i.2 nm

/-- Registries only grow. -/
structure RegsLe (a b : Regs) : Prop where
  blend : a.blend ≤ b.blend
  grad : a.grad ≤ b.grad
  layers : a.layers ≤ b.layers
  spot : ∀ k c, lookup k a.spot = some c → lookup k b.spot = some c
  fonts : ∀ k c, lookup k a.fonts = some c → lookup k b.fonts = some c
  images : ∀ k c, lookup k a.images = some c → lookup k b.images = some c
  heap : ∀ (k : Nat) c, a.heap[k]? = some c → b.heap[k]? = some c
  tpl : ∀ k, (lookup k a.tpl).isSome → (lookup k b.tpl).isSome

theorem RegsLe.refl (a : Regs) : RegsLe a a :=
  ⟨Nat.le_refl _, Nat.le_refl _, Nat.le_refl _, fun _ _ h => h, fun _ _ h => h, fun _ _ h => h, fun _ _ h => h, fun _ h => h⟩

theorem RegsLe.trans {a b c : Regs} (h1 : RegsLe a b) (h2 : RegsLe b c) : RegsLe a c :=
  ⟨Nat.le_trans h1.blend h2.blend, Nat.le_trans h1.grad h2.grad, Nat.le_trans h1.layers h2.layers,
   fun k x h => h2.spot k x (h1.spot k x h), fun k x h => h2.fonts k x (h1.fonts k x h), fun k x h => h2.images k x (h1.images k x h),
   fun k x h => h2.heap k x (h1.heap k x h), fun k h => h2.tpl k (h1.tpl k h)⟩

theorem resolves_mono {a b : Regs} (h : RegsLe a b) {op name : Bytes} (hr : resolves a op name) : resolves b op name := by
  unfold resolves at *
  split
  · rename_i h0; simp only [h0, if_true] at hr
    obtain ⟨i, h1, h2, h3⟩ := hr; exact ⟨i, h1, Nat.le_trans h2 h.blend, h3⟩
  rename_i h0; simp only [h0, if_false] at hr
  split
  · rename_i h0; simp only [h0, if_true] at hr
    obtain ⟨i, h1, h2, h3⟩ := hr; exact ⟨i, h1, Nat.le_trans h2 h.grad, h3⟩
  rename_i h0; simp only [h0, if_false] at hr
  split
  · rename_i h0; simp only [h0, if_true] at hr
    rcases hr with hr | ⟨i, h1, h2⟩
    · exact .inl hr
    · exact .inr ⟨i, Nat.lt_of_lt_of_le h1 h.layers, h2⟩
  rename_i h0; simp only [h0, if_false] at hr
  split
  · rename_i h0; simp only [h0, if_true] at hr
    obtain ⟨k, c, h1, h2⟩ := hr; exact ⟨k, c, h.spot _ _ h1, h2⟩
  rename_i h0; simp only [h0, if_false] at hr
  split
  · rename_i h0; simp only [h0, if_true] at hr
    rcases hr with hr | ⟨k, d, h1, h2⟩
    · exact .inl hr
    · exact .inr ⟨k, d, h.fonts _ _ h1, h2⟩
  rename_i h0; simp only [h0, if_false] at hr
  split
  · rename_i h0; simp only [h0, if_true] at hr
    rcases hr with ⟨k, p, im, h1, h2, h3⟩ | ⟨k, t, h1, h2⟩
    · exact .inl ⟨k, p, im, h.images _ _ h1, h.heap _ _ h2, h3⟩
    · have := h.tpl k (by simp [h1])
      obtain ⟨t', ht'⟩ := Option.isSome_iff_exists.mp this
      exact .inr ⟨k, t', ht', h2⟩
  rename_i h0; simp only [h0, if_false] at hr

theorem Resolved.mono {a b : Regs} (h : RegsLe a b) {i : Instr} (hr : Resolved a i) : Resolved b i :=
  fun nm hn => resolves_mono h (hr nm hn)

/-- Operators that neither save nor restore graphics states, nor open or close sections. -/
def looseOp (w : Bytes) : Bool :=
  w ≠ B "q" && w ≠ B "Q" && w ≠ B "BDC" && w ≠ B "BMC" && w ≠ B "EMC"

/-- Operators that set colours or the line width. -/
def attrOps : List Bytes :=
  [B "g", B "rg", B "k", B "cs", B "sc", B "scn", B "G", B "RG", B "K", B "CS", B "SC", B "SCN", B "w"]

/-- Instructions that leave the nesting alone. -/
def Loose (is : List Instr) : Prop := is.all (fun i => looseOp i.2) = true

/-- Instructions that leave the nesting, the colours and the line width alone. -/
structure Neutral (is : List Instr) : Prop where
  nest : ∀ s, nestRun s is = some s
  attr : ∀ s, attrRun s is = s

/-- A colour string is a fragment of instructions that leave the nesting alone and use registered resources. -/
def ColOk (r : Regs) (str : Bytes) : Prop := ∃ is, Frag str is ∧ Loose is ∧ ∀ i ∈ is, Resolved r i

/-- What is kept true of the strings that get written to pages. -/
structure Inv' (r : Regs) (draw fill text fontI : Bytes) (bm : List (Bytes × Nat)) : Prop where
  draw : ColOk r draw
  fill : ColOk r fill
  text : ColOk r text
  font : fontI = [] ∨ ∃ k d, lookup k r.fonts = some d ∧ d.i = fontI
  fonts : ∀ k d, lookup k r.fonts = some d → ∀ c ∈ d.i, isRegular c = true
  imgs : ∀ im ∈ r.heap, ∀ c ∈ im.i, isRegular c = true
  bmap : ∀ k p, lookup k bm = some p → 1 ≤ p ∧ p ≤ r.blend

/-- The invariant on a document. -/
def Inv (f : Fpdf) : Prop := Inv' (regsOf f) f.c.draw.str f.c.fill.str f.c.text.str f.t.currentFont.i f.r.blendMap

theorem ColOk.mono {a b : Regs} (h : RegsLe a b) {s : Bytes} (hc : ColOk a s) : ColOk b s := by
  obtain ⟨is, h1, h2, h3⟩ := hc
  exact ⟨is, h1, h2, fun i hi => (h3 i hi).mono h⟩

/-- Depth of saved graphics states a document believes to be in. -/
def nestOf (f : Fpdf) : Nat := f.clipNest + f.transformNest

/-- Whether a layer is open. -/
def layOf (f : Fpdf) : Bool := f.layer.currentLayer.isSome

/-- Content `is` was written that keeps nesting and resources in order. -/
structure Wr (f g : Fpdf) (is : List Instr) : Prop where
  app : ∃ b, App f g b ∧ Lines b is
  regs : RegsLe (regsOf f) (regsOf g)
  nest : ∀ d, nestRun (d + nestOf f, layOf f) is = some (d + nestOf g, layOf g)
  inv : Inv g
  res : ∀ i ∈ is, Resolved (regsOf g) i

/-- Instructions `is` keep the attributes, at a place where at least the topmost `m` (afterwards `n`) saved ones are the current ones. -/
def KeepA (m n : Nat) (is : List Instr) : Prop :=
  ∀ d A st, (∀ x ∈ st.take (d + m), x = A) → ∃ st', attrRun (A, st) is = (A, st') ∧ ∀ x ∈ st'.take (d + n), x = A

theorem attrRun_append (s : Attr × List Attr) (a b : List Instr) : attrRun s (a ++ b) = attrRun (attrRun s a) b := List.foldl_append

theorem KeepA.nil (m : Nat) : KeepA m m [] := fun _ _ st h => ⟨st, rfl, h⟩

theorem KeepA.trans {l m n : Nat} {a b : List Instr} (ha : KeepA l m a) (hb : KeepA m n b) : KeepA l n (a ++ b) := by
  intro d A st h
  obtain ⟨s1, e1, h1⟩ := ha d A st h
  obtain ⟨s2, e2, h2⟩ := hb d A s1 h1
  exact ⟨s2, by rw [attrRun_append, e1, e2], h2⟩

theorem Neutral.keep {is : List Instr} (h : Neutral is) (m : Nat) : KeepA m m is := fun _ A st hs => ⟨st, h.attr _, hs⟩

/-- A drawing operation, or one that sets colours or the line width. -/
structure EmitsL (f g : Fpdf) : Prop where
  frm : Frm f g
  wr : Inv f → ∃ is, Wr f g is

/-- A drawing operation. -/
structure Emits (f g : Fpdf) : Prop where
  frm : Frm f g
  wr : Inv f → ∃ is, Wr f g is ∧ KeepA (nestOf f) (nestOf g) is

theorem Emits.loose {f g : Fpdf} (h : Emits f g) : EmitsL f g :=
  ⟨h.frm, fun hi => have ⟨is, h1, _⟩ := h.wr hi; ⟨is, h1⟩⟩

theorem nestRun_append (s : Nest) (a b : List Instr) : nestRun s (a ++ b) = (nestRun s a).bind fun s => nestRun s b := by
  induction a generalizing s with
  | nil => simp [nestRun]
  | cons i a ih =>
    simp only [List.cons_append, nestRun]
    cases nestStep s i <;> simp [ih]

theorem Wr.refl {f : Fpdf} (h : Inv f) : Wr f f [] :=
  ⟨⟨[], App.refl f, Lines.nil⟩, RegsLe.refl _, fun d => by simp [nestRun], h, by simp⟩

theorem Wr.trans {f g h : Fpdf} {i j : List Instr} (hf : frameOf g = frameOf f) (h1 : Wr f g i) (h2 : Wr g h j) : Wr f h (i ++ j) := by
  obtain ⟨a, ha, hla⟩ := h1.app
  obtain ⟨b, hb, hlb⟩ := h2.app
  refine ⟨⟨_, ha.trans hf hb, hla.append hlb⟩, h1.regs.trans h2.regs, fun d => ?_, h2.inv, ?_⟩
  · rw [nestRun_append, h1.nest d]
    exact h2.nest d
  · intro x hx
    rcases List.mem_append.mp hx with hx | hx
    · exact (h1.res x hx).mono h2.regs
    · exact h2.res x hx

theorem Emits.refl (f : Fpdf) : Emits f f := ⟨Frm.refl f, fun h => ⟨[], Wr.refl h, KeepA.nil _⟩⟩

theorem Emits.trans {f g h : Fpdf} (h1 : Emits f g) (h2 : Emits g h) : Emits f h :=
  ⟨h1.frm.trans h2.frm, fun hi => by
    obtain ⟨i, hw, hk⟩ := h1.wr hi
    obtain ⟨j, hv, hl⟩ := h2.wr hw.inv
    exact ⟨_, hw.trans h1.frm.frame hv, hk.trans hl⟩⟩

theorem EmitsL.refl (f : Fpdf) : EmitsL f f := (Emits.refl f).loose

theorem EmitsL.trans {f g h : Fpdf} (h1 : EmitsL f g) (h2 : EmitsL g h) : EmitsL f h :=
  ⟨h1.frm.trans h2.frm, fun hi => by
    obtain ⟨i, hw⟩ := h1.wr hi
    obtain ⟨j, hv⟩ := h2.wr hw.inv
    exact ⟨_, hw.trans h1.frm.frame hv⟩⟩

theorem Neutral.nil : Neutral [] := ⟨fun s => rfl, fun s => rfl⟩

theorem Neutral.append {a b : List Instr} (ha : Neutral a) (hb : Neutral b) : Neutral (a ++ b) :=
  ⟨fun s => by rw [nestRun_append, ha.nest s]; exact hb.nest s, fun s => by rw [attrRun_append, ha.attr, hb.attr]⟩

theorem Loose.nest {is : List Instr} (h : Loose is) (s : Nest) : nestRun s is = some s := by
  unfold Loose at h
  induction is with
  | nil => rfl
  | cons i is ih =>
    simp only [List.all_cons, Bool.and_eq_true] at h
    have h1 := h.1
    simp only [looseOp, Bool.and_eq_true, decide_eq_true_eq, ne_eq] at h1
    simp only [nestRun, nestStep]
    simp [h1, ih h.2]

/-- Instructions that leave the nesting alone leave the saved attributes alone. -/
theorem Loose.stack {is : List Instr} (h : Loose is) (A : Attr) (st : List Attr) : ∃ A', attrRun (A, st) is = (A', st) := by
  unfold Loose at h
  induction is generalizing A with
  | nil => exact ⟨A, rfl⟩
  | cons i is ih =>
    simp only [List.all_cons, Bool.and_eq_true] at h
    have h1 := h.1
    simp only [looseOp, Bool.and_eq_true, decide_eq_true_eq, ne_eq] at h1
    have e : ∃ A1, attrStep (A, st) i = (A1, st) := by
      unfold attrStep
      rw [if_neg h1.1.1.1.1, if_neg h1.1.1.1.2]
      repeat' split
      all_goals exact ⟨_, rfl⟩
    obtain ⟨A1, e⟩ := e
    obtain ⟨A', h'⟩ := ih h.2 A1
    refine ⟨A', ?_⟩
    show attrRun (attrStep (A, st) i) is = _
    rw [e]; exact h'

theorem Loose.append {a b : List Instr} (ha : Loose a) (hb : Loose b) : Loose (a ++ b) := by
  unfold Loose at *; rw [List.all_append, ha, hb]; rfl

/-- The parts of the state that `out` does not change. -/
def rest (f : Fpdf) := (regsOf f, f.c.draw.str, f.c.fill.str, f.c.text.str, f.t.currentFont.i, f.clipNest, f.transformNest, f.layer.currentLayer, f.r.blendMap)

theorem rest_out (f : Fpdf) (s : Bytes) : rest (f.out s) = rest f := by unfold Fpdf.out; split <;> rfl

theorem rest_regs {f g : Fpdf} (h : rest g = rest f) : regsOf g = regsOf f := congrArg (·.1) h
theorem rest_nest {f g : Fpdf} (h : rest g = rest f) : nestOf g = nestOf f := by
  have h1 : g.clipNest = f.clipNest := congrArg (·.2.2.2.2.2.1) h
  have h2 : g.transformNest = f.transformNest := congrArg (·.2.2.2.2.2.2.1) h
  simp [nestOf, h1, h2]
theorem rest_lay {f g : Fpdf} (h : rest g = rest f) : layOf g = layOf f := by
  have h1 : g.layer.currentLayer = f.layer.currentLayer := congrArg (·.2.2.2.2.2.2.2.1) h
  simp [layOf, h1]
theorem rest_inv {f g : Fpdf} (h : rest g = rest f) (hi : Inv f) : Inv g := by
  unfold Inv at *
  have h1 : g.c.draw.str = f.c.draw.str := congrArg (·.2.1) h
  have h2 : g.c.fill.str = f.c.fill.str := congrArg (·.2.2.1) h
  have h3 : g.c.text.str = f.c.text.str := congrArg (·.2.2.2.1) h
  have h4 : g.t.currentFont.i = f.t.currentFont.i := congrArg (·.2.2.2.2.1) h
  have h5 : g.r.blendMap = f.r.blendMap := congrArg (·.2.2.2.2.2.2.2.2) h
  rw [rest_regs h, h1, h2, h3, h4, h5]; exact hi

/-- Writing a line of neutral instructions with registered names. -/
theorem Wr.out {f : Fpdf} {s : Bytes} {is : List Instr} (hi : Inv f) (hs : Frag s is) (hn : ∀ s, nestRun s is = some s)
    (hr : ∀ i ∈ is, Resolved (regsOf f) i) : Wr f (f.out s) is := by
  have h := rest_out f s
  refine ⟨⟨_, App.out f s, hs.line⟩, ?_, fun d => ?_, rest_inv h hi, ?_⟩
  · rw [rest_regs h]; exact RegsLe.refl _
  · rw [rest_nest h, rest_lay h]; exact hn _
  · rw [rest_regs h]; exact hr

theorem EmitsL.out {f : Fpdf} {s : Bytes} (h : Inv f → ∃ is, Frag s is ∧ Loose is ∧ ∀ i ∈ is, Resolved (regsOf f) i) :
    EmitsL f (f.out s) :=
  ⟨Frm.out f s, fun hi => by
    obtain ⟨is, h1, h2, h3⟩ := h hi
    exact ⟨is, Wr.out hi h1 h2.nest h3⟩⟩

theorem Emits.out {f : Fpdf} {s : Bytes} (h : Inv f → ∃ is, Frag s is ∧ Neutral is ∧ ∀ i ∈ is, Resolved (regsOf f) i) :
    Emits f (f.out s) :=
  ⟨Frm.out f s, fun hi => by
    obtain ⟨is, h1, h2, h3⟩ := h hi
    exact ⟨is, Wr.out hi h1 h2.nest h3, by rw [rest_nest (rest_out f s)]; exact h2.keep _⟩⟩

/-- A change that nothing here looks at. -/
theorem Emits.upd {f g : Fpdf} (h : quiet g = quiet f) (hr : rest g = rest f) (he : f.err ≠ none → g.err ≠ none) : Emits f g :=
  ⟨Frm.upd h he, fun hi => ⟨[], ⟨⟨[], quiet_app h, Lines.nil⟩, by rw [rest_regs hr]; exact RegsLe.refl _,
    fun d => by rw [rest_nest hr, rest_lay hr]; rfl, rest_inv hr hi, by simp⟩, by rw [rest_nest hr]; exact KeepA.nil _⟩⟩

/-- A change of registries or colours, without output. -/
theorem Emits.reg {f g : Fpdf} (h : quiet g = quiet f) (he : f.err ≠ none → g.err ≠ none) (hle : Inv f → RegsLe (regsOf f) (regsOf g))
    (hn : nestOf g = nestOf f) (hl : layOf g = layOf f) (hinv : Inv f → Inv g) : Emits f g :=
  ⟨Frm.upd h he, fun hi => ⟨[], ⟨⟨[], quiet_app h, Lines.nil⟩, hle hi, fun d => by rw [hn, hl]; rfl, hinv hi, by simp⟩, by rw [hn]; exact KeepA.nil _⟩⟩

theorem EmitsL.upd {f g : Fpdf} (h : quiet g = quiet f) (hr : rest g = rest f) (he : f.err ≠ none → g.err ≠ none) : EmitsL f g := (Emits.upd h hr he).loose

theorem EmitsL.reg {f g : Fpdf} (h : quiet g = quiet f) (he : f.err ≠ none → g.err ≠ none) (hle : Inv f → RegsLe (regsOf f) (regsOf g))
    (hn : nestOf g = nestOf f) (hl : layOf g = layOf f) (hinv : Inv f → Inv g) : EmitsL f g := (Emits.reg h he hle hn hl hinv).loose

theorem Emits.ite {f g h : Fpdf} {c : Prop} [Decidable c] (h1 : c → Emits f g) (h2 : ¬ c → Emits f h) : Emits f (if c then g else h) := by
  split
  · exact h1 ‹_›
  · exact h2 ‹_›

theorem EmitsL.ite {f g h : Fpdf} {c : Prop} [Decidable c] (h1 : c → EmitsL f g) (h2 : ¬ c → EmitsL f h) : EmitsL f (if c then g else h) := by
  split
  · exact h1 ‹_›
  · exact h2 ‹_›

theorem Emits.foldl {α} (F : Fpdf → α → Fpdf) (h : ∀ f a, Emits f (F f a)) (l : List α) (f : Fpdf) : Emits f (l.foldl F f) := by
  induction l generalizing f with
  | nil => exact Emits.refl f
  | cons a l ih => exact (h f a).trans (ih _)

/-- Operators without effect on nesting, colours and line width. -/
def plainOp (w : Bytes) : Bool := looseOp w && attrOps.all (fun o => w ≠ o)

theorem neutral_of_plain {is : List Instr} (h : ∀ i ∈ is, plainOp i.2 = true) : Neutral is := by
  constructor
  · intro s
    induction is with
    | nil => rfl
    | cons i is ih =>
      have h1 := h i (by simp)
      simp only [plainOp, looseOp, Bool.and_eq_true, decide_eq_true_eq, ne_eq] at h1
      simp only [nestRun, nestStep]
      simp [h1, ih (fun x hx => h x (by simp [hx]))]
  · intro s
    induction is with
    | nil => rfl
    | cons i is ih =>
      have h1 := h i (by simp)
      simp only [plainOp, looseOp, attrOps, List.all_cons, List.all_nil, Bool.and_eq_true, Bool.and_true, decide_eq_true_eq, ne_eq] at h1
      have e : attrStep s i = s := by
        unfold attrStep
        simp [h1]
      show attrRun (attrStep s i) is = s
      rw [e]
      exact ih (fun x hx => h x (by simp [hx]))

/-- No names at all. -/
def noNames (is : List Instr) : Bool := is.all fun i => (Instr.names i).isEmpty

theorem resolved_of_noNames {is : List Instr} (h : noNames is = true) (r : Regs) : ∀ i ∈ is, Resolved r i := by
  intro i hi nm hn
  have := List.all_eq_true.mp h i hi
  simp only [List.isEmpty_iff] at this
  rw [this] at hn
  cases hn

end Verif.Proof
