import Verif.Proof.Cells
import Mathlib.Tactic.ByContra
/-
The calls of the header and footer functions.
-/
namespace Verif.Proof
open Verif Verif.Model

/-- In the header or footer function. -/
def busy (f : Fpdf) : Prop := f.inHeader = true ∨ f.inFooter = true

/-- Programs in which the header and footer functions are set before the first page and do not add or select pages themselves. Errors are not cleared. -/
def paged : Guard :=
  { op := fun f cb op => op ≠ .close ∧ (∀ b, op ≠ .output b) ∧ op ≠ .clearError ∧ (¬ busy f → cb.header.isSome = true ∧ cb.footer.isSome = true) ∧
      (busy f → op ≠ .addPage ∧ (∀ o sz, op ≠ .addPageFormat o sz) ∧ ∀ n, op ≠ .setPage n) }

/-- The calls made up to the beginning of page `n`. -/
def begun : Nat → List CbEvent
  | 0 => []
  | 1 => [.header 1]
  | n + 2 => begun (n + 1) ++ [.footer (n + 1) false, .header (n + 2)]

/-- The calls made so far are those for the pages there are. -/
structure Logged (f : Fpdf) : Prop where
  head : f.inHeader = false
  foot : f.inFooter = false
  some : 1 ≤ f.pages.length
  log : f.log = begun (f.pages.length - 1)

/-- Nothing happens to the pages in a header or footer. -/
def still (f g : Fpdf) : Prop := g.page = f.page ∧ g.pages.length = f.pages.length ∧ g.inHeader = f.inHeader ∧ g.inFooter = f.inFooter ∧ g.log = f.log

theorem still.refl (f : Fpdf) : still f f := ⟨rfl, rfl, rfl, rfl, rfl⟩
theorem still.trans {f g h : Fpdf} (a : still f g) (b : still g h) : still f h :=
  ⟨b.1.trans a.1, b.2.1.trans a.2.1, b.2.2.1.trans a.2.2.1, b.2.2.2.1.trans a.2.2.2.1, b.2.2.2.2.trans a.2.2.2.2⟩

theorem still.of_frm {f g : Fpdf} (h : Frm f g) : still f g := by
  have e := h.frame
  unfold frameOf at e
  simp only [Prod.mk.injEq] at e
  exact ⟨e.2.1, h.len, e.2.2.2.2.2.2.1, e.2.2.2.2.2.2.2.1, e.2.2.2.2.2.2.2.2.1⟩

theorem still.logged {f g : Fpdf} (h : still f g) (a : Logged f) : Logged g :=
  ⟨h.2.2.1.trans a.head, h.2.2.2.1.trans a.foot, by rw [h.2.1]; exact a.some, by rw [h.2.2.2.2, h.2.1]; exact a.log⟩

/-- What a piece of program does. -/
structure Logs (f g : Fpdf) : Prop where
  latch : f.err ≠ none → g.err ≠ none
  same : busy f → still f g
  log : Logged f → g.err = none → Logged g

theorem Logs.refl (f : Fpdf) : Logs f f := ⟨id, fun _ => .refl f, fun h _ => h⟩
theorem Logs.trans {f g h : Fpdf} (a : Logs f g) (b : Logs g h) : Logs f h := by
  refine ⟨fun x => b.latch (a.latch x), fun x => ?_, fun x y => ?_⟩
  · have a1 := a.same x
    refine a1.trans (b.same ?_)
    unfold busy
    rw [a1.2.2.1, a1.2.2.2.1]
    exact x
  · exact b.log (a.log x (by by_contra hn; exact b.latch hn y)) y

theorem Logs.of_frm {f g : Fpdf} (h : Frm f g) : Logs f g := ⟨h.latch, fun _ => .of_frm h, fun a _ => (still.of_frm h).logged a⟩

theorem runFooter_log {cb : Cb} (hcb : Cb.Rel (fun _ => True) Logs cb) (hs : cb.footer.isSome = true) (last : Bool) (f : Fpdf) :
    (f.runFooter cb last).page = f.page ∧ (f.runFooter cb last).pages.length = f.pages.length ∧ (f.runFooter cb last).inHeader = f.inHeader ∧ (f.runFooter cb last).inFooter = false ∧
      (f.runFooter cb last).log = f.log ++ [CbEvent.footer f.page last] ∧ (f.err ≠ none → (f.runFooter cb last).err ≠ none) := by
  unfold Fpdf.runFooter
  dsimp only
  cases hf : cb.footer with
  | none => rw [hf] at hs; cases hs
  | some fn =>
    dsimp only
    have h := hcb.footer fn hf last { ({ f with inFooter := true } : Fpdf) with log := f.log ++ [CbEvent.footer f.page last] } trivial
    obtain ⟨a, b, c, d, e⟩ := h.same (.inr rfl)
    exact ⟨a, b, c, rfl, e, h.latch⟩

theorem runHeader_log {cb : Cb} (hcb : Cb.Rel (fun _ => True) Logs cb) (hs : cb.header.isSome = true) (f : Fpdf) :
    (f.runHeader cb).page = f.page ∧ (f.runHeader cb).pages.length = f.pages.length ∧ (f.runHeader cb).inHeader = false ∧ (f.runHeader cb).inFooter = f.inFooter ∧
      (f.runHeader cb).log = f.log ++ [CbEvent.header f.page] ∧ (f.err ≠ none → (f.runHeader cb).err ≠ none) := by
  unfold Fpdf.runHeader
  cases hf : cb.header with
  | none => rw [hf] at hs; cases hs
  | some fn =>
    dsimp only
    have h := hcb.header fn hf { f with inHeader := true, log := f.log ++ [CbEvent.header f.page] } trivial
    obtain ⟨a, b, c, d, e⟩ := h.same (.inl rfl)
    have hl := h.latch
    clear h
    generalize fn { f with inHeader := true, log := f.log ++ [CbEvent.header f.page] } = g at a b c d e hl ⊢
    split
    · obtain ⟨b1, b2, b3, b4, b5⟩ := still.of_frm (setHomeXY_frm { g with inHeader := false })
      exact ⟨b1.trans a, b2.trans b, b3, b4.trans d, b5.trans e, fun x => (setHomeXY_frm { g with inHeader := false }).latch (hl x)⟩
    · exact ⟨a, b, rfl, d, e, hl⟩

/-- Leaving a page. -/
theorem leavePage_log {cb : Cb} (hcb : Cb.Rel (fun _ => True) Logs cb) (hs : cb.footer.isSome = true) (f : Fpdf) :
    (f.leavePage cb).page = f.pages.length - 1 ∧ (f.leavePage cb).pages.length = f.pages.length ∧ (f.leavePage cb).inHeader = f.inHeader ∧
      (f.inFooter = false → (f.leavePage cb).inFooter = false) ∧
      (f.leavePage cb).log = f.log ++ (if 0 < f.pages.length - 1 then [CbEvent.footer (f.pages.length - 1) false] else []) ∧ (f.err ≠ none → (f.leavePage cb).err ≠ none) := by
  unfold Fpdf.leavePage
  dsimp only
  have h1 : ∃ g : Fpdf, (if f.page ≠ f.pages.length - 1 then { f with page := f.pages.length - 1 } else f) = g ∧ g.page = f.pages.length - 1 ∧ g.pages.length = f.pages.length ∧ g.inHeader = f.inHeader ∧
      g.inFooter = f.inFooter ∧ g.log = f.log ∧ g.err = f.err := by
    split
    · exact ⟨_, rfl, rfl, rfl, rfl, rfl, rfl, rfl⟩
    · next h => exact ⟨_, rfl, not_not.mp h, rfl, rfl, rfl, rfl, rfl⟩
  obtain ⟨g, hg, g1, g2, g3, g4, g5, g6⟩ := h1
  rw [hg]
  have h2 : ∃ h : Fpdf, (if g.state = 0 then { g with state := 1 } else g) = h ∧ h.page = f.pages.length - 1 ∧ h.pages.length = f.pages.length ∧ h.inHeader = f.inHeader ∧
      h.inFooter = f.inFooter ∧ h.log = f.log ∧ h.err = f.err := by
    split
    · exact ⟨_, rfl, g1, g2, g3, g4, g5, g6⟩
    · exact ⟨_, rfl, g1, g2, g3, g4, g5, g6⟩
  clear hg g1 g2 g3 g4 g5 g6
  obtain ⟨h, hh, g1, g2, g3, g4, g5, g6⟩ := h2
  rw [hh]
  by_cases hp : h.page > 0
  · rw [if_pos hp, if_pos (by omega)]
    obtain ⟨a, b, c, d, e, l⟩ := runFooter_log hcb hs false h
    have k := endLayer_frm (h.runFooter cb false)
    obtain ⟨k1, k2, k3, k4, k5⟩ := still.of_frm k
    refine ⟨k1.trans (a.trans g1), k2.trans (b.trans g2), k3.trans (c.trans g3), fun _ => k4.trans d, ?_, fun x => k.latch (l (by rw [g6]; exact x))⟩
    refine k5.trans (e.trans ?_)
    rw [g5, g1]
  · rw [if_neg hp, if_neg (by omega), List.append_nil]
    exact ⟨g1, g2, g3, fun x => g4.trans x, g5, fun x => by rw [g6]; exact x⟩

theorem beginpage_log (f : Fpdf) (o : Bytes) (sz : Size) : (f.beginpage o sz).inHeader = f.inHeader ∧ (f.beginpage o sz).inFooter = f.inFooter ∧ (f.beginpage o sz).log = f.log := by
  unfold Fpdf.beginpage
  split
  · exact ⟨rfl, rfl, rfl⟩
  · dsimp only
    generalize Fpdf.orientLetter _ o = ol
    split <;> split <;> exact ⟨rfl, rfl, rfl⟩

/-- The rest of `AddPageFormat`. -/
theorem tail_log {E : Ext} {cb : Cb} (hcb : Cb.Rel (fun _ => True) Logs cb) (hh : cb.header.isSome = true) (f : Fpdf) (o : Bytes) (sz : Size) (he : f.err = none) (hok : (f.addPageFormat E cb o sz).err = none) :
    ((f.leavePage cb).beginpage o sz).err = none ∧ (f.addPageFormat E cb o sz).page = ((f.leavePage cb).beginpage o sz).page ∧
      (f.addPageFormat E cb o sz).pages.length = ((f.leavePage cb).beginpage o sz).pages.length ∧ (f.addPageFormat E cb o sz).inHeader = false ∧
      (f.addPageFormat E cb o sz).inFooter = ((f.leavePage cb).beginpage o sz).inFooter ∧
      (f.addPageFormat E cb o sz).log = ((f.leavePage cb).beginpage o sz).log ++ [CbEvent.header ((f.leavePage cb).beginpage o sz).page] := by
  revert hok
  unfold Fpdf.addPageFormat
  rw [if_neg (by simp [he])]
  dsimp only
  generalize (f.leavePage cb).beginpage o sz = b
  have f2 := (pageLines_frm b f.save.lw).trans (restoreFont_frm _ E f.save)
  generalize Fpdf.restoreFont E (Fpdf.pageLines b f.save.lw) f.save = g at f2 ⊢
  split
  · next h => exact fun hok => absurd hok h.2
  · have f3 := f2.trans (pageColors_frm g f.save)
    generalize g.pageColors f.save = g3 at f3 ⊢
    obtain ⟨r1, r2, r3, r4, r5, r6⟩ := runHeader_log hcb hh g3
    generalize g3.runHeader cb = g4 at r1 r2 r3 r4 r5 r6 ⊢
    have f5 := (restoreLine_frm g4 f.save).trans (restoreFont_frm _ E f.save)
    generalize Fpdf.restoreFont E (Fpdf.restoreLine g4 f.save) f.save = g5 at f5 ⊢
    split
    · next h => exact fun hok => absurd hok h.2
    · have f6 := f5.trans (restoreColors_frm g5 f.save)
      generalize g5.restoreColors f.save = g6 at f6 ⊢
      intro hok
      obtain ⟨a1, a2, a3, a4, a5⟩ := still.of_frm f3
      obtain ⟨b1, b2, b3, b4, b5⟩ := still.of_frm f6
      refine ⟨?_, by rw [b1, r1, a1], by rw [b2, r2, a2], by rw [b3, r3], by rw [b4, r4, a4], by rw [b5, r5, a5, a1]⟩
      by_contra hn
      exact f6.latch (r6 (f3.latch hn)) hok

/-- Adding a page. -/
theorem addPageFormat_logs {E : Ext} {cb : Cb} (hcb : Cb.Rel (fun _ => True) Logs cb) (hh : cb.header.isSome = true) (hf : cb.footer.isSome = true) (f : Fpdf) (o : Bytes) (sz : Size) (hb : ¬ busy f) :
    Logs f (f.addPageFormat E cb o sz) := by
  refine ⟨fun x => by rw [addPageFormat_of_err E cb f o sz x]; exact x, fun x => absurd x hb, fun hl hok => ?_⟩
  by_cases he : f.err ≠ none
  · rw [addPageFormat_of_err E cb f o sz he] at hok
    exact absurd hok he
  have he : f.err = none := not_not.mp he
  obtain ⟨t0, t1, t2, t3, t4, t5⟩ := tail_log hcb hh f o sz he hok
  obtain ⟨l1, l2, l3, l4, l5, l6⟩ := leavePage_log hcb hf f
  have hle : (f.leavePage cb).err = none := by
    by_contra hn
    rw [beginpage_of_err _ o sz hn] at t0
    exact hn t0
  obtain ⟨p1, p2, -⟩ := beginpage_page (f.leavePage cb) o sz hle
  obtain ⟨b1, b2, b3⟩ := beginpage_log (f.leavePage cb) o sz
  have hn := hl.some
  have hlen : (f.addPageFormat E cb o sz).pages.length = f.pages.length + 1 := by rw [t2, p2, List.length_append, l2]; rfl
  refine ⟨t3, by rw [t4, b2]; exact l4 hl.foot, by omega, ?_⟩
  rw [t5, b3, l5, p1, l1, hlen, hl.log]
  generalize hm : f.pages.length - 1 = m
  have : f.pages.length + 1 - 1 = m + 1 := by omega
  rw [this]
  cases m with
  | zero => rfl
  | succ m =>
    rw [if_pos (by omega), List.append_assoc]
    rfl

/-- A new page is the last page. -/
theorem addPageFormat_last {E : Ext} {cb : Cb} (hcb : Cb.Rel (fun _ => True) Logs cb) (hh : cb.header.isSome = true) (hf : cb.footer.isSome = true) (f : Fpdf) (o : Bytes) (sz : Size) (hn : 1 ≤ f.pages.length)
    (hok : (f.addPageFormat E cb o sz).err = none) : (f.addPageFormat E cb o sz).page = (f.addPageFormat E cb o sz).pages.length - 1 := by
  by_cases he : f.err ≠ none
  · rw [addPageFormat_of_err E cb f o sz he] at hok
    exact absurd hok he
  obtain ⟨t0, t1, t2, -⟩ := tail_log hcb hh f o sz (not_not.mp he) hok
  obtain ⟨l1, l2, -⟩ := leavePage_log hcb hf f
  have hle : (f.leavePage cb).err = none := by
    by_contra hn
    rw [beginpage_of_err _ o sz hn] at t0
    exact hn t0
  obtain ⟨p1, p2, -⟩ := beginpage_page (f.leavePage cb) o sz hle
  rw [t1, t2, p1, p2, List.length_append, l1, l2]
  show f.pages.length - 1 + 1 = f.pages.length + 1 - 1
  omega

theorem Logs.of_flow {E : Ext} {cb : Cb} (hcb : Cb.Rel (fun _ => True) Logs cb) {f g : Fpdf} (hh : cb.header.isSome = true) (hf' : cb.footer.isSome = true) (h : Flow E cb f g) : Logs f g := by
  have hacc := hcb.accept
  induction h with
  | refl => exact .refl _
  | step _ s ih => exact ih.trans (.of_frm s.emits.frm)
  | accept _ q ih => exact ih.trans (hacc _)
  | @page g h o sz _ q _ s ih =>
    have hf : ¬ busy f := by
      intro x
      have a := ih.same x
      unfold busy at x
      rw [← a.2.2.1, ← a.2.2.2.1, q.1, q.2] at x
      simp at x
    have h1 := (hacc g).trans (.of_frm s.emits.frm)
    by_cases hb : busy h
    · refine ⟨fun x => ?_, fun x => absurd x hf, fun x y => ?_⟩
      · have := h1.latch (ih.latch x)
        rw [addPageFormat_of_err E cb h o sz this]; exact this
      · exfalso
        have he : h.err = none := by
          by_contra hn
          rw [addPageFormat_of_err E cb h o sz hn] at y
          exact hn y
        have := (ih.trans h1).log x he
        rcases hb with hb | hb
        · rw [this.head] at hb; cases hb
        · rw [this.foot] at hb; cases hb
    · exact (ih.trans h1).trans (addPageFormat_logs hcb hh hf' h o sz hb)
  | img info a b c d _ _ ih => exact ih.trans (.of_frm (Frm.out _ _))

theorem addPage_logs {E : Ext} {cb : Cb} (hcb : Cb.Rel (fun _ => True) Logs cb) (hh : cb.header.isSome = true) (hf : cb.footer.isSome = true) (f : Fpdf) (hb : ¬ busy f) : Logs f (f.addPage E cb) := by
  unfold Fpdf.addPage
  split
  · exact .refl f
  · exact addPageFormat_logs hcb hh hf f _ _ hb

/-- What a piece of program does when it is called by a header or footer function. -/
def Quiet (f g : Fpdf) : Prop := (f.err ≠ none → g.err ≠ none) ∧ (busy f → still f g)

theorem Quiet.refl (f : Fpdf) : Quiet f f := ⟨id, fun _ => .refl f⟩
theorem Quiet.trans {f g h : Fpdf} (a : Quiet f g) (b : Quiet g h) : Quiet f h := by
  refine ⟨fun x => b.1 (a.1 x), fun x => ?_⟩
  have a1 := a.2 x
  refine a1.trans (b.2 ?_)
  unfold busy
  rw [a1.2.2.1, a1.2.2.2.1]
  exact x
theorem Quiet.of_frm {f g : Fpdf} (h : Frm f g) : Quiet f g := ⟨h.latch, fun _ => .of_frm h⟩

theorem Quiet.of_flow {E : Ext} {cb : Cb} (hcb : Cb.Rel (fun _ => True) Logs cb) {f g : Fpdf} (h : Flow E cb f g) : Quiet f g := by
  have hacc : ∀ f, Quiet f (cb.accept f).2 := fun f => ⟨(hcb.accept f).latch, (hcb.accept f).same⟩
  induction h with
  | refl => exact .refl _
  | step _ s ih => exact ih.trans (.of_frm s.emits.frm)
  | accept _ q ih => exact ih.trans (hacc _)
  | @page g h o sz _ q _ s ih =>
    have h1 := (hacc g).trans (.of_frm s.emits.frm)
    refine ⟨fun x => ?_, fun x => ?_⟩
    · have := h1.1 (ih.1 x)
      rw [addPageFormat_of_err E cb h o sz this]; exact this
    · exfalso
      have a := ih.2 x
      unfold busy at x
      rw [← a.2.2.1, ← a.2.2.2.1, q.1, q.2] at x
      simp at x
  | img info a b c d _ _ ih => exact ih.trans (.of_frm (Frm.out _ _))

theorem reach_logs {E : Ext} {f g : Fpdf} (h : Reach E paged f g) : Logs f g := by
  refine Reach.rel (G := paged) Logs Logs.refl (fun _ _ _ => Logs.trans) (fun f op cb hop hcb => ?_) h
  obtain ⟨h1, h2, h3, h4, h6⟩ := hop
  rcases op_cases op with hs | hs | rfl | ⟨o, sz, rfl⟩ | ⟨n, rfl⟩ | rfl | ⟨b, rfl⟩ | rfl
  · exact .of_frm (exec_frm E cb f op hs)
  · by_cases hb : busy f
    · have h7 : Quiet f (f.exec E cb op) :=
        exec_flow_of Quiet.refl (fun _ _ _ => Quiet.trans) (fun f g h => .of_flow hcb h) (fun f op h => .of_frm (exec_frm E cb f op (helper_stays h))) f op hs
      refine ⟨h7.1, h7.2, fun x _ => ?_⟩
      unfold busy at hb
      rw [x.head, x.foot] at hb
      simp at hb
    · obtain ⟨a, b⟩ := h4 hb
      exact exec_flow_of Logs.refl (fun _ _ _ => Logs.trans) (fun f g h => .of_flow hcb a b h) (fun f op h => .of_frm (exec_frm E cb f op (helper_stays h))) f op hs
  · have hb : ¬ busy f := fun x => (h6 x).1 rfl
    exact addPage_logs hcb (h4 hb).1 (h4 hb).2 f hb
  · have hb : ¬ busy f := fun x => (h6 x).2.1 o sz rfl
    exact addPageFormat_logs hcb (h4 hb).1 (h4 hb).2 f o sz hb
  · show Logs f (f.setPage n)
    have hb : ¬ busy f := fun x => (h6 x).2.2 n rfl
    refine ⟨fun x => ?_, fun x => absurd x hb, fun x y => ?_⟩
    · unfold Fpdf.setPage; split <;> exact x
    · unfold Fpdf.setPage
      split
      · exact ⟨x.head, x.foot, x.some, x.log⟩
      · exact x
  · exact absurd rfl h1
  · exact absurd rfl (h2 b)
  · exact absurd rfl h3

end Verif.Proof
