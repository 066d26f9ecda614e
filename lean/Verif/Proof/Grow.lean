import Verif.Proof.Output
/-
Contents only grow; without `SetPage` the current page is the last one.
-/
namespace Verif.Proof
open Verif Verif.Model Verif.Spec

/-- Like `PageRel`, for call-backs that keep to `R` when there is a current page. -/
structure OnPage (E : Ext) (cb : Cb) (R : Fpdf → Fpdf → Prop) : Prop where
  refl : ∀ f, R f f
  trans : ∀ f g h, R f g → R g h → R f h
  frm : ∀ f g, Frm f g → R f g
  cbs : Cb.Rel (fun s => s.page ≠ 0) R cb
  op : ∀ f g, R f g → Open f g
  last : ∀ f : Fpdf, R f { f with page := f.pages.length - 1 }
  opened : ∀ f : Fpdf, f.state = 0 → R f { f with state := 1 }
  ended : ∀ f : Fpdf, R f { f with state := 1 }
  flags : ∀ (f : Fpdf) a b c, R f { f with inHeader := a, inFooter := b, log := c }
  begin : ∀ f o sz, R f (f.beginpage o sz)

section
variable {E : Ext} {cb : Cb} {R : Fpdf → Fpdf → Prop} (K : OnPage E cb R)
include K

theorem OnPage.runFooter (last : Bool) (f : Fpdf) (hp : f.page ≠ 0) : R f (f.runFooter cb last) := by
  unfold Fpdf.runFooter
  dsimp only
  cases hf : cb.footer with
  | none =>
    dsimp only
    exact K.trans _ _ _ (K.flags f f.inHeader true f.log) (K.flags _ f.inHeader false f.log)
  | some fn =>
    dsimp only
    refine K.trans _ _ _ (K.trans _ _ _ (K.flags f f.inHeader true (f.log ++ [CbEvent.footer f.page last])) (K.cbs.footer fn hf last _ hp)) ?_
    exact K.flags _ _ false _

theorem OnPage.runHeader (f : Fpdf) (hp : f.page ≠ 0) : R f (f.runHeader cb) := by
  unfold Fpdf.runHeader
  cases hf : cb.header with
  | none => exact K.refl f
  | some fn =>
    dsimp only
    have h1 : R f { fn { f with inHeader := true, log := f.log ++ [CbEvent.header f.page] } with inHeader := false } := by
      refine K.trans _ _ _ (K.trans _ _ _ (K.flags f true f.inFooter (f.log ++ [CbEvent.header f.page])) (K.cbs.header fn hf _ hp)) ?_
      exact K.flags _ false _ _
    split
    · exact K.trans _ _ _ h1 (K.frm _ _ (setHomeXY_frm _))
    · exact h1

theorem OnPage.endpage (f : Fpdf) : R f f.endpage :=
  K.trans _ _ _ (K.frm _ _ (endLayer_frm f)) (K.ended _)

theorem OnPage.leavePage (f : Fpdf) : R f (f.leavePage cb) := by
  unfold Fpdf.leavePage
  dsimp only
  have h1 : R f (if f.page ≠ f.pages.length - 1 then { f with page := f.pages.length - 1 } else f) := by
    split
    · exact K.last f
    · exact K.refl f
  generalize (if f.page ≠ f.pages.length - 1 then { f with page := f.pages.length - 1 } else f) = g at h1 ⊢
  have h2 : R g (if g.state = 0 then { g with state := 1 } else g) := by
    split
    · exact K.opened g ‹_›
    · exact K.refl g
  generalize (if g.state = 0 then { g with state := 1 } else g) = g2 at h2 ⊢
  have h3 := K.trans _ _ _ h1 h2
  split
  · next hp => exact K.trans _ _ _ (K.trans _ _ _ h3 (K.runFooter false g2 (by omega))) (K.endpage _)
  · exact h3

theorem OnPage.turnRel : TurnRel E cb R where
  refl := K.refl
  trans := K.trans
  frm := K.frm
  header := fun f hp => K.runHeader f hp
  accept := K.cbs.accept
  turn := fun f o sz he => by
    refine ⟨K.trans _ _ _ (K.leavePage f) (K.begin _ o sz), ?_⟩
    exact turn_page (E := E) ⟨fun h hh s hs => K.op _ _ (K.cbs.header h hh s hs), fun h hh b s hs => K.op _ _ (K.cbs.footer h hh b s hs), fun s => K.op _ _ (K.cbs.accept s)⟩ f he o sz

end

/-! ### Contents only grow -/

/-- Everything written on a page stays there. -/
def Grow (f g : Fpdf) : Prop := ∀ (i : Nat) b, f.pages[i]? = some b → ∃ c, g.pages[i]? = some (b ++ c)

theorem Grow.refl (f : Fpdf) : Grow f f := fun i b h => ⟨[], by simp [h]⟩
theorem Grow.trans {f g h : Fpdf} (a : Grow f g) (b : Grow g h) : Grow f h := fun i x hx => by
  obtain ⟨c, hc⟩ := a i x hx
  obtain ⟨d, hd⟩ := b i _ hc
  exact ⟨c ++ d, by rw [hd, List.append_assoc]⟩
theorem Grow.of_eq {f g : Fpdf} (h : g.pages = f.pages) : Grow f g := fun i b hb => ⟨[], by rw [h, hb]; simp⟩
theorem Grow.of_frm {f g : Fpdf} (h : Frm f g) : Grow f g := fun i b hb => by
  obtain ⟨c, hc⟩ := h.app
  rw [hc.1]
  split
  · rw [modifyAt_getElem?, hb]
    split
    · exact ⟨c, rfl⟩
    · exact ⟨[], by simp⟩
  · exact ⟨[], by simp [hb]⟩
theorem Grow.begin (f : Fpdf) (o : Bytes) (sz : Size) : Grow f (f.beginpage o sz) := by
  by_cases he : f.err = none
  · intro i b hb
    rw [(beginpage_page f o sz he).2.1]
    refine ⟨[], ?_⟩
    rw [List.append_nil, List.getElem?_append_left]
    · exact hb
    · exact (List.getElem?_eq_some_iff.mp hb).1
  · rw [beginpage_of_err f o sz he]; exact Grow.refl f

/-- Without `SetPage` the current page is the last one. -/
def AtLast (f g : Fpdf) : Prop := f.page + 1 = f.pages.length → g.page + 1 = g.pages.length

/-- Both, and the document stays open. -/
structure Go (f g : Fpdf) : Prop where
  op : Open f g
  grow : Grow f g

theorem Go.onPage {E : Ext} {cb : Cb} (hcb : Cb.Rel (fun s => s.page ≠ 0) Go cb) : OnPage E cb Go where
  refl := fun f => ⟨Open.refl f, Grow.refl f⟩
  trans := fun _ _ _ a b => ⟨a.op.trans b.op, a.grow.trans b.grow⟩
  frm := fun _ _ h => ⟨Open.of_frm h, Grow.of_frm h⟩
  cbs := hcb
  op := fun _ _ h => h.op
  last := fun f => ⟨⟨rfl, rfl, id, fun x => ⟨by show f.pages.length - 1 < f.pages.length; omega, fun y => by show f.pages.length - 1 ≠ 0; omega, Nat.le_refl _⟩, rfl⟩, Grow.of_eq rfl⟩
  opened := fun f _ => ⟨⟨rfl, rfl, fun _ => by show 1 < 3; omega, fun x => ⟨x, id, Nat.le_refl _⟩, rfl⟩, Grow.of_eq rfl⟩
  ended := fun f => ⟨⟨rfl, rfl, fun _ => by show 1 < 3; omega, fun x => ⟨x, id, Nat.le_refl _⟩, rfl⟩, Grow.of_eq rfl⟩
  flags := fun f a b c => ⟨⟨rfl, rfl, id, fun x => ⟨x, id, Nat.le_refl _⟩, rfl⟩, Grow.of_eq rfl⟩
  begin := fun f o sz => ⟨beginpage_open f o sz, Grow.begin f o sz⟩

theorem setPage_grow (f : Fpdf) (n : Int) : Grow f (f.setPage n) := Grow.of_eq (by unfold Fpdf.setPage; split <;> rfl)

theorem clearError_open (f : Fpdf) : Open f f.clearError := ⟨rfl, rfl, id, fun x => ⟨x, id, Nat.le_refl _⟩, rfl⟩

theorem exec_go {E : Ext} {cb : Cb} (hcb : Cb.Rel (fun s => s.page ≠ 0) Go cb) (f : Fpdf) (op : Op) (h1 : op ≠ .close) (h2 : ∀ b, op ≠ .output b) :
    Go f (f.exec E cb op) :=
  (Go.onPage (E := E) hcb).turnRel.exec f op (fun n _ => ⟨setPage_open f n, setPage_grow f n⟩) (fun _ => ⟨clearError_open f, Grow.of_eq rfl⟩) h1 h2

structure GoLast (f g : Fpdf) : Prop where
  go : Go f g
  last : AtLast f g

theorem GoLast.onPage {E : Ext} {cb : Cb} (hcb : Cb.Rel (fun s => s.page ≠ 0) GoLast cb) : OnPage E cb GoLast := by
  have K : OnPage E {} Go := Go.onPage (E := E) (cb := {}) ⟨fun _ h => (by simp at h), fun _ h => (by simp at h), fun s => ⟨Open.refl s, Grow.refl s⟩⟩
  refine ⟨fun f => ⟨K.refl f, id⟩, fun _ _ _ a b => ⟨K.trans _ _ _ a.go b.go, fun x => b.last (a.last x)⟩, fun f g h => ⟨K.frm _ _ h, fun x => ?_⟩, hcb, fun _ _ h => h.go.op,
    fun f => ⟨K.last f, fun x => ?_⟩, fun f h => ⟨K.opened f h, id⟩, fun f => ⟨K.ended f, id⟩, fun f a b c => ⟨K.flags f a b c, id⟩, fun f o sz => ⟨K.begin f o sz, fun x => ?_⟩⟩
  · rw [frame_page h.frame, h.len]; exact x
  · show f.pages.length - 1 + 1 = f.pages.length
    omega
  · by_cases he : f.err = none
    · obtain ⟨h1, h2, _⟩ := beginpage_page f o sz he
      rw [h1, h2, List.length_append, List.length_singleton, x]
    · rw [beginpage_of_err f o sz he]; exact x

theorem exec_goLast {E : Ext} {cb : Cb} (hcb : Cb.Rel (fun s => s.page ≠ 0) GoLast cb) (f : Fpdf) (op : Op) (h1 : op ≠ .close) (h2 : ∀ b, op ≠ .output b) (h3 : ∀ n, op ≠ .setPage n) :
    GoLast f (f.exec E cb op) :=
  (GoLast.onPage (E := E) hcb).turnRel.exec f op (fun n h => absurd h (h3 n)) (fun _ => ⟨⟨clearError_open f, Grow.of_eq rfl⟩, id⟩) h1 h2

end Verif.Proof
