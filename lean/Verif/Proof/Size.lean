import Verif.Proof.Alias
import Verif.Spec.PageSize
import Mathlib.Tactic.ByContra
/-
The size of the pages: the current page's dimensions agree with its orientation and size, and the sizes of earlier pages stay.
-/
namespace Verif.Proof
open Verif Verif.Model Verif.Spec

/-- The current dimensions are those of the current orientation and size, and the page-break trigger is the bottom margin above the lower edge. -/
structure Geo (f : Fpdf) : Prop where
  dim : (⟨f.p.w, f.p.h⟩ : Size) = Fpdf.orient f.p.curOrientation f.p.curPageSize
  wPt : f.p.wPt = f.p.w * f.k
  hPt : f.p.hPt = f.p.h * f.k
  trig : f.p.pageBreakTrigger = f.p.h - f.p.bMargin

/-- The size of page `n` in points. -/
def sizeOf (f : Fpdf) (n : Nat) : Rat × Rat :=
  match lookup n f.p.pageSizes with
  | some s => (s.wd, s.ht)
  | none => ((Fpdf.orient f.p.defOrientation f.p.defPageSize).wd * f.k, (Fpdf.orient f.p.defOrientation f.p.defPageSize).ht * f.k)

/-- Consistency of a document without `SetPage`: the current page is the last one, its size is the current size, and no sizes are recorded for later pages. -/
structure Cons (f : Fpdf) : Prop where
  geo : Geo f
  last : f.page + 1 = f.pages.length
  beyond : ∀ n, f.pages.length ≤ n → lookup n f.p.pageSizes = none
  cur : f.page ≠ 0 → sizeOf f f.page = (f.p.wPt, f.p.hPt)

/-- What calls do to the sizes. -/
structure Sized (f g : Fpdf) : Prop where
  cons : Cons g
  defO : g.p.defOrientation = f.p.defOrientation
  defS : g.p.defPageSize = f.p.defPageSize
  k : g.k = f.k
  kept : ∀ n, n < f.pages.length → sizeOf g n = sizeOf f n
  size : g.pages.length = f.pages.length → g.p.curPageSize = f.p.curPageSize

theorem Sized.refl {f : Fpdf} (h : Cons f) : Sized f f := ⟨h, rfl, rfl, rfl, fun _ _ => rfl, fun _ => rfl⟩

theorem Grow.len {f g : Fpdf} (h : Grow f g) : f.pages.length ≤ g.pages.length := by
  by_contra hlt
  have h1 : g.pages.length < f.pages.length := by omega
  obtain ⟨c, hc⟩ := h g.pages.length _ (List.getElem?_eq_getElem h1)
  have := (List.getElem?_eq_some_iff.mp hc).1
  omega

theorem Sized.trans {f g h : Fpdf} (hl : f.pages.length ≤ g.pages.length) (hl' : g.pages.length ≤ h.pages.length) (a : Sized f g) (b : Sized g h) : Sized f h where
  cons := b.cons
  defO := b.defO.trans a.defO
  defS := b.defS.trans a.defS
  k := b.k.trans a.k
  kept := fun n hn => (b.kept n (Nat.lt_of_lt_of_le hn hl)).trans (a.kept n hn)
  size := fun e => (b.size (by omega)).trans (a.size (by omega))

/-- States that agree on all that matters here. -/
theorem Sized.of_p {f g : Fpdf} (hk : g.k = f.k) (hp : g.p = f.p) (hq : g.pages = f.pages) (hn : g.page + 1 = g.pages.length) (h : Cons f) : Sized f g := by
  obtain ⟨x, h2, h3, h4⟩ := h
  have hs : ∀ n, sizeOf g n = sizeOf f n := fun n => by unfold sizeOf; rw [hp, hk]
  have hpg : g.page = f.page := by rw [hq] at hn; omega
  refine ⟨⟨⟨?_, ?_, ?_, ?_⟩, hn, fun n hn => ?_, fun h => ?_⟩, by rw [hp], by rw [hp], hk, fun n _ => hs n, fun _ => by rw [hp]⟩
  · rw [hp]; exact x.dim
  · rw [hp, hk]; exact x.wPt
  · rw [hp, hk]; exact x.hPt
  · rw [hp]; exact x.trig
  · rw [hp]; rw [hq] at hn; exact h3 n hn
  · rw [hs, hp, hpg]; rw [hpg] at h; exact h4 h

theorem Sized.of_frm {f g : Fpdf} (h : Frm f g) (hc : Cons f) : Sized f g := by
  obtain ⟨x, h2, h3, h4⟩ := hc
  have hl := h.len
  have e := h.frame
  unfold frameOf at e
  simp only [Prod.mk.injEq] at e
  obtain ⟨e1, e2, e3, e4, e5, e6, e7, e8, e9, e10, e11, e12, e13, e14, e15, e16, e17, e18, e19⟩ := e
  have hs : ∀ n, sizeOf g n = sizeOf f n := fun n => by unfold sizeOf; rw [e14, e10, e12, e5]
  refine ⟨⟨⟨?_, ?_, ?_, h.geo x.trig⟩, by rw [e2, hl]; exact h2, fun n hn => ?_, fun h => ?_⟩, e10, e12, e5, fun n _ => hs n, fun _ => e13⟩
  · rw [e15, e16, e11, e13]; exact x.dim
  · rw [e17, e15, e5]; exact x.wPt
  · rw [e18, e16, e5]; exact x.hPt
  · rw [e14]; exact h3 n (by rw [← hl]; exact hn)
  · rw [hs, e2, e17, e18]; rw [e2] at h; exact h4 h

/-- Beginning a page: it gets the dimensions asked for. -/
theorem beginpage_geo (f : Fpdf) (o : Bytes) (sz : Size) (he : f.err = none) (h : Geo f) :
    Geo (f.beginpage o sz) ∧ (f.beginpage o sz).p.defOrientation = f.p.defOrientation ∧ (f.beginpage o sz).p.defPageSize = f.p.defPageSize ∧ (f.beginpage o sz).k = f.k ∧
      (∀ n, n ≠ f.page + 1 → lookup n (f.beginpage o sz).p.pageSizes = lookup n f.p.pageSizes) ∧
      (lookup (f.page + 1) f.p.pageSizes = none → sizeOf (f.beginpage o sz) (f.page + 1) =
        ((Fpdf.orient (Fpdf.orientLetter f.p.defOrientation o) sz).wd * f.k, (Fpdf.orient (Fpdf.orientLetter f.p.defOrientation o) sz).ht * f.k)) := by
  obtain ⟨h1, h2, h3, h4⟩ := h
  have hd1 : f.p.w = (Fpdf.orient f.p.curOrientation f.p.curPageSize).wd := by rw [← h1]
  have hd2 : f.p.h = (Fpdf.orient f.p.curOrientation f.p.curPageSize).ht := by rw [← h1]
  unfold Fpdf.beginpage
  rw [if_neg (by simp [he])]
  dsimp only
  generalize Fpdf.orientLetter f.p.defOrientation o = ol
  by_cases hc : ol ≠ f.p.curOrientation ∨ sz ≠ f.p.curPageSize
  · rw [if_pos hc]
    dsimp only
    by_cases hd : ol ≠ f.p.defOrientation ∨ sz ≠ f.p.defPageSize
    · rw [if_pos hd]
      refine ⟨⟨rfl, rfl, rfl, rfl⟩, rfl, rfl, rfl, fun n hn => lookup_insert_ne _ _ (fun e => hn e), fun _ => ?_⟩
      unfold sizeOf
      dsimp only
      rw [lookup_insert, if_pos rfl]
    · rw [if_neg hd]
      refine ⟨⟨rfl, rfl, rfl, rfl⟩, rfl, rfl, rfl, fun n hn => rfl, fun hl => ?_⟩
      unfold sizeOf
      dsimp only
      rw [hl]
      have : ol = f.p.defOrientation ∧ sz = f.p.defPageSize := by
        refine ⟨?_, ?_⟩ <;> by_contra hx
        · exact hd (.inl hx)
        · exact hd (.inr hx)
      rw [this.1, this.2]
  · rw [if_neg hc]
    have hcur : ol = f.p.curOrientation ∧ sz = f.p.curPageSize := by
      refine ⟨?_, ?_⟩ <;> by_contra hx
      · exact hc (.inl hx)
      · exact hc (.inr hx)
    dsimp only
    by_cases hd : ol ≠ f.p.defOrientation ∨ sz ≠ f.p.defPageSize
    · rw [if_pos hd]
      refine ⟨⟨h1, h2, h3, h4⟩, rfl, rfl, rfl, fun n hn => lookup_insert_ne _ _ (fun e => hn e), fun _ => ?_⟩
      unfold sizeOf
      dsimp only
      rw [lookup_insert, if_pos rfl]
      dsimp only
      rw [h2, h3, hcur.1, hcur.2, ← hd1, ← hd2]
    · rw [if_neg hd]
      refine ⟨⟨h1, h2, h3, h4⟩, rfl, rfl, rfl, fun n hn => rfl, fun hl => ?_⟩
      unfold sizeOf
      dsimp only
      rw [hl]
      have : ol = f.p.defOrientation ∧ sz = f.p.defPageSize := by
        refine ⟨?_, ?_⟩ <;> by_contra hx
        · exact hd (.inl hx)
        · exact hd (.inr hx)
      rw [this.1, this.2]

/-- The current dimensions after beginning a page. -/
theorem beginpage_dims (f : Fpdf) (o : Bytes) (sz : Size) (he : f.err = none) (h : Geo f) :
    (⟨(f.beginpage o sz).p.w, (f.beginpage o sz).p.h⟩ : Size) = Fpdf.orient (Fpdf.orientLetter f.p.defOrientation o) sz := by
  have h1 := h.dim
  unfold Fpdf.beginpage
  rw [if_neg (by simp [he])]
  dsimp only
  generalize Fpdf.orientLetter f.p.defOrientation o = ol
  by_cases hc : ol ≠ f.p.curOrientation ∨ sz ≠ f.p.curPageSize
  · rw [if_pos hc]
    dsimp only
    split <;> rfl
  · rw [if_neg hc]
    have hcur : ol = f.p.curOrientation ∧ sz = f.p.curPageSize := by
      refine ⟨?_, ?_⟩ <;> by_contra hx
      · exact hc (.inl hx)
      · exact hc (.inr hx)
    dsimp only
    rw [hcur.1, hcur.2]
    split <;> exact h1

theorem beginpage_sized (f : Fpdf) (o : Bytes) (sz : Size) (hc : Cons f) : Sized f (f.beginpage o sz) := by
  by_cases he : f.err = none
  · obtain ⟨a, b, c, d, e, g⟩ := beginpage_geo f o sz he hc.geo
    obtain ⟨p1, p2, _⟩ := beginpage_page f o sz he
    have hl := hc.last
    refine ⟨⟨a, ?_, fun n hn => ?_, fun _ => ?_⟩, b, c, d, fun n hn => ?_, fun h => ?_⟩
    · rw [p1, p2, List.length_append, List.length_singleton, hl]
    · rw [p2, List.length_append, List.length_singleton] at hn
      rw [e n (by omega)]
      exact hc.beyond n (by omega)
    · rw [p1, g (hc.beyond _ (by omega))]
      have hd := beginpage_dims f o sz he hc.geo
      rw [a.wPt, a.hPt, d, ← hd]
    · unfold sizeOf
      rw [e n (by omega), b, c, d]
    · rw [p2, List.length_append, List.length_singleton] at h
      omega
  · rw [beginpage_of_err f o sz he]; exact Sized.refl hc

/-- Sizes, as long as the document is consistent. -/
def GSized (f g : Fpdf) : Prop := GoLast f g ∧ (Cons f → Sized f g)

theorem GSized.trans {f g h : Fpdf} (a : GSized f g) (b : GSized g h) : GSized f h :=
  ⟨⟨⟨a.1.go.op.trans b.1.go.op, a.1.go.grow.trans b.1.go.grow⟩, fun x => b.1.last (a.1.last x)⟩, fun x => Sized.trans a.1.go.grow.len b.1.go.grow.len (a.2 x) (b.2 (a.2 x).cons)⟩

theorem GSized.onPage {E : Ext} {cb : Cb} (hcb : Cb.Rel (fun s => s.page ≠ 0) GSized cb) : OnPage E cb GSized := by
  have K : OnPage E {} GoLast := GoLast.onPage (E := E) (cb := {}) ⟨fun _ h => (by simp at h), fun _ h => (by simp at h), fun s => ⟨⟨Open.refl s, Grow.refl s⟩, id⟩⟩
  exact ⟨fun f => ⟨K.refl f, Sized.refl⟩, fun _ _ _ a b => a.trans b, fun f g h => ⟨K.frm _ _ h, Sized.of_frm h⟩, hcb, fun _ _ h => h.1.go.op,
    fun f => ⟨K.last f, fun h => Sized.of_p rfl rfl rfl (by show f.pages.length - 1 + 1 = f.pages.length; have := h.last; omega) h⟩, fun f h => ⟨K.opened f h, fun h => Sized.of_p rfl rfl rfl h.last h⟩,
    fun f => ⟨K.ended f, fun h => Sized.of_p rfl rfl rfl h.last h⟩, fun f a b c => ⟨K.flags f a b c, fun h => Sized.of_p rfl rfl rfl h.last h⟩,
    fun f o sz => ⟨K.begin f o sz, fun x => beginpage_sized f o sz x⟩⟩

theorem exec_gsized {E : Ext} {cb : Cb} (hcb : Cb.Rel (fun s => s.page ≠ 0) GSized cb) (f : Fpdf) (op : Op) (h1 : op ≠ .close) (h2 : ∀ b, op ≠ .output b) (h3 : ∀ n, op ≠ .setPage n) :
    GSized f (f.exec E cb op) :=
  (GSized.onPage (E := E) hcb).turnRel.exec f op (fun n h => absurd h (h3 n))
    (fun _ => ⟨⟨⟨clearError_open f, Grow.of_eq rfl⟩, id⟩, fun h => Sized.of_p rfl rfl rfl h.last h⟩) h1 h2

theorem display_geo (g : Fpdf) (h : Geo g) (hp : g.p.pageSizes = []) (b pr : Bytes) :
    Geo { g.setDisplayMode (B "default") (B "default") with r.blendMode := b, m.producer := pr } ∧
      ({ g.setDisplayMode (B "default") (B "default") with r.blendMode := b, m.producer := pr } : Fpdf).p.pageSizes = [] := by
  have e : (g.setDisplayMode (B "default") (B "default")).p = g.p ∧ (g.setDisplayMode (B "default") (B "default")).k = g.k := by
    unfold Fpdf.setDisplayMode
    dsimp only
    repeat' split
    all_goals exact ⟨rfl, rfl⟩
  generalize g.setDisplayMode (B "default") (B "default") = d at e ⊢
  obtain ⟨e1, e2⟩ := e
  refine ⟨⟨?_, ?_, ?_, ?_⟩, ?_⟩
  · show (⟨d.p.w, d.p.h⟩ : Size) = Fpdf.orient d.p.curOrientation d.p.curPageSize
    rw [e1]; exact h.dim
  · show d.p.wPt = d.p.w * d.k
    rw [e1, e2]; exact h.wPt
  · show d.p.hPt = d.p.h * d.k
    rw [e1, e2]; exact h.hPt
  · show d.p.pageBreakTrigger = d.p.h - d.p.bMargin
    rw [e1]; exact h.trig
  · show d.p.pageSizes = []
    rw [e1]; exact hp

/-- A document that `New` makes without error has consistent geometry, and no pages. -/
theorem new_geo (o u s : Bytes) (sz : Size) (h : (Fpdf.new o u s sz).err = none) : Geo (Fpdf.new o u s sz) ∧ (Fpdf.new o u s sz).p.pageSizes = [] := by
  revert h
  unfold Fpdf.new
  dsimp only
  split
  · intro h; simp [Fpdf.assignErr] at h
  · next k hk =>
    split
    · intro h; simp [Fpdf.assignErr] at h
    · next s1 hs =>
      split
      · intro h; simp [Fpdf.assignErr] at h
      · next o1 ho =>
        intro _
        exact display_geo _ ⟨rfl, rfl, rfl, rfl⟩ rfl _ _

end Verif.Proof
