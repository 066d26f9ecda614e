import Verif.Proof.Grow
/-
Alias replacement, page by page.
-/
namespace Verif.Proof
open Verif Verif.Model Verif.Spec

/-- Replacing one alias. -/
def substOne (mode : Bool) (am : List (Bytes × Bytes)) (b : Bytes) (k : Bytes) : Bytes :=
  match lookup k am with
  | none => b
  | some rep => if mode then replaceAll (u16 k false) (u16 rep false) b else replaceAll k rep b

/-- Replacing all aliases in the contents of a page. -/
def subst (E : Ext) (am : List (Bytes × Bytes)) (b : Bytes) : Bytes :=
  (E.ord 2 (keys am)).foldl (substOne true am) ((E.ord 1 (keys am)).foldl (substOne false am) b)

theorem subst_nil (E : Ext) (b : Bytes) : subst E [] b = b := by
  have h : ∀ s, E.ord s (keys ([] : List (Bytes × Bytes))) = [] := fun s => (E.ord_perm s []).eq_nil
  unfold subst
  rw [h, h]
  rfl

theorem subst_single (E : Ext) (a r b : Bytes) : subst E [(a, r)] b = replaceAll (u16 a false) (u16 r false) (replaceAll a r b) := by
  have h : ∀ s, E.ord s (keys [(a, r)]) = [a] := fun s => List.perm_singleton.mp (E.ord_perm s [a])
  unfold subst
  rw [h, h]
  simp [substOne, lookup]

/-- The pages 1 .. `page` with a function applied. -/
def onPages (page : Nat) (F : Bytes → Bytes) (ps : List Bytes) : List Bytes := ps.mapIdx fun i s => if 1 ≤ i ∧ i ≤ page then F s else s

theorem onPages_onPages (page : Nat) (F G : Bytes → Bytes) (ps : List Bytes) : onPages page G (onPages page F ps) = onPages page (fun b => G (F b)) ps := by
  unfold onPages
  rw [List.mapIdx_mapIdx]
  congr 1
  funext i s
  dsimp only [Function.comp]
  split <;> rfl

theorem onPages_id (page : Nat) (ps : List Bytes) : onPages page (fun b => b) ps = ps := by
  unfold onPages
  apply List.ext_getElem?
  intro i
  rw [List.getElem?_mapIdx]
  cases ps[i]? <;> simp

/-- A change of the pages that depends only on the aliases. -/
structure Sub (f g : Fpdf) (F : Bytes → Bytes) : Prop where
  pages : g.pages = onPages f.page F f.pages
  page : g.page = f.page
  map : g.m.aliasMap = f.m.aliasMap

theorem Sub.trans {f g h : Fpdf} {F G : Bytes → Bytes} (a : Sub f g F) (b : Sub g h G) : Sub f h (fun x => G (F x)) :=
  ⟨by rw [b.pages, a.page, a.pages, onPages_onPages], b.page.trans a.page, b.map.trans a.map⟩

/-- The step of `replaceAliases`. -/
def aliasGo (mode : Bool) (f : Fpdf) (k : Bytes) : Fpdf :=
  match lookup k f.m.aliasMap with
  | none => f
  | some rep =>
    let f := if mode then (f.noteU16 k).noteU16 rep else f
    let (a, r) := if mode then (u16 k false, u16 rep false) else (k, rep)
    { f with pages := Fpdf.replaceOnPages f.page a r f.pages }

theorem replaceAliases_eq (E : Ext) (f : Fpdf) : f.replaceAliases E =
    (E.ord 2 (keys ((E.ord 1 (keys f.m.aliasMap)).foldl (aliasGo false) f).m.aliasMap)).foldl (aliasGo true) ((E.ord 1 (keys f.m.aliasMap)).foldl (aliasGo false) f) := rfl

theorem noteU16_keeps (f : Fpdf) (s : Bytes) : (f.noteU16 s).pages = f.pages ∧ (f.noteU16 s).page = f.page ∧ (f.noteU16 s).m = f.m := ⟨rfl, rfl, rfl⟩

theorem aliasGo_sub (mode : Bool) (f : Fpdf) (k : Bytes) : Sub f (aliasGo mode f k) (fun b => substOne mode f.m.aliasMap b k) := by
  unfold aliasGo substOne
  cases h : lookup k f.m.aliasMap with
  | none => exact ⟨(onPages_id _ _).symm, rfl, rfl⟩
  | some rep =>
    dsimp only
    cases mode with
    | false => exact ⟨rfl, rfl, rfl⟩
    | true =>
      obtain ⟨h1, h2, h3⟩ := noteU16_keeps f k
      obtain ⟨k1, k2, k3⟩ := noteU16_keeps (f.noteU16 k) rep
      refine ⟨?_, k2.trans h2, ?_⟩
      · show Fpdf.replaceOnPages _ _ _ ((f.noteU16 k).noteU16 rep).pages = _
        rw [k1, h1]
        simp only [if_true, k2, h2]
        rfl
      · show ((f.noteU16 k).noteU16 rep).m.aliasMap = _
        rw [k3, h3]

theorem aliasFold_sub (mode : Bool) (ks : List Bytes) : ∀ f : Fpdf, Sub f (ks.foldl (aliasGo mode) f) (fun b => ks.foldl (substOne mode f.m.aliasMap) b) := by
  induction ks with
  | nil => intro f; exact ⟨(onPages_id _ _).symm, rfl, rfl⟩
  | cons k ks ih =>
    intro f
    have h1 := aliasGo_sub mode f k
    have h2 := ih (aliasGo mode f k)
    rw [h1.map] at h2
    exact h1.trans h2

theorem replaceAliases_sub (E : Ext) (f : Fpdf) : Sub f (f.replaceAliases E) (subst E f.m.aliasMap) := by
  rw [replaceAliases_eq]
  have h1 := aliasFold_sub false (E.ord 1 (keys f.m.aliasMap)) f
  generalize (E.ord 1 (keys f.m.aliasMap)).foldl (aliasGo false) f = g at h1 ⊢
  have h2 := aliasFold_sub true (E.ord 2 (keys g.m.aliasMap)) g
  rw [h1.map] at h2 ⊢
  exact h1.trans h2

/-- The aliases of a document when it is closed. -/
def aliasesOf (f : Fpdf) : List (Bytes × Bytes) :=
  if f.m.aliasNbPagesStr ≠ [] then Model.insert f.m.aliasNbPagesStr (sprintf "%d" [.d f.page]) f.m.aliasMap else f.m.aliasMap

theorem aliased_sub (E : Ext) (f : Fpdf) : (aliased E f).pages = onPages f.page (subst E (aliasesOf f)) f.pages ∧ (aliased E f).m.aliasMap = aliasesOf f := by
  unfold aliased aliasesOf
  split
  · have h := replaceAliases_sub E { f with m.aliasMap := Model.insert f.m.aliasNbPagesStr (sprintf "%d" [.d f.page]) f.m.aliasMap }
    exact ⟨h.pages, h.map⟩
  · have h := replaceAliases_sub E f
    exact ⟨h.pages, h.map⟩

theorem header_alias (f : Fpdf) (hs : f.state = 1) : f.putheader.m.aliasMap = f.m.aliasMap ∧ f.putheader.m.aliasNbPagesStr = f.m.aliasNbPagesStr ∧ f.putheader.pages = f.pages := by
  obtain ⟨v, hv⟩ := putheader_spec f hs
  rw [hv]
  exact ⟨rfl, rfl, rfl⟩

theorem sAli_sub (E : Ext) (f : Fpdf) (hs : f.state = 1) (hA : wfix (sAtt E f) = wfix f.putheader) :
    (sAli E f).pages = onPages f.page (subst E (aliasesOf f)) f.pages ∧ (sAli E f).m.aliasMap = aliasesOf f := by
  obtain ⟨a1, a2, a3⟩ := header_alias f hs
  have b1 := (wfix_alias hA).1.trans a1
  have b2 := (wfix_alias hA).2.trans a2
  have b3 := (wfix_pagenum hA).trans (header_same f hs).1
  have b4 := (wfix_page hA).2.1.trans a3
  have h := aliased_sub E (sAtt E f)
  have e : aliasesOf (sAtt E f) = aliasesOf f := by unfold aliasesOf; rw [b1, b2, b3]
  rw [e, b3, b4] at h
  exact h

theorem onPages_getD (page : Nat) (F : Bytes → Bytes) (ps : List Bytes) (n : Nat) (h1 : 1 ≤ n) (h2 : n ≤ page) (h3 : n < ps.length) :
    (onPages page F ps).getD n [] = F (ps.getD n []) := by
  unfold onPages
  rw [List.getD_eq_getElem?_getD, List.getD_eq_getElem?_getD, List.getElem?_mapIdx, List.getElem?_eq_getElem h3]
  simp only [Option.map_some, Option.getD_some]
  rw [if_pos ⟨h1, h2⟩]

/-! ### What `Output` writes -/

/-- The state `last` in which the file is written, and the file. -/
structure Printed (E : Ext) (cb : Cb) (f g last : Fpdf) (file : Bytes) (v : Nat) (A P M T : List Body) (d : Bytes) (items : List (Nat × Body)) : Prop where
  eq : last = ((if f.page = 0 then f.addPage E cb else f).runFooter cb true).endpage
  err1 : (if f.page = 0 then f.addPage E cb else f).err = none
  page1 : (if f.page = 0 then f.addPage E cb else f).page ≠ 0
  err : last.err = none
  state : last.state = 1
  page : last.page ≠ 0
  op : Open f last
  written : Written E last v A P M T d items file
  fin : Final E last g
  subst : ∀ n, 1 ≤ n → n ≤ g.page → g.pages.getD n [] = subst E g.m.aliasMap (last.pages.getD n [])

theorem output_printed {E : Ext} {cb : Cb} {f : Fpdf} {wf : Bool} (hcb : CloseOk E cb f) (hf : Fresh f) (hok : (f.output E cb wf).2.2 = none) :
    ∃ last v A P M T d items, Printed E cb f (f.output E cb wf).2.1 last (f.output E cb wf).1 v A P M T d items := by
  obtain ⟨hc, h1, h2, _⟩ := output_ok hf.state hok
  rw [h1, h2]
  obtain ⟨f1, last, e1, e2, e3, e4, e5, e6, e7, e8, ⟨v, A, P, M, T, d, items, hw⟩, hfin⟩ := close_written f hcb hf hc
  subst e1
  refine ⟨last, v, A, P, M, T, d, items, ⟨e4, e2, e3, e5, e6, e7, e8, hw, ?_, ?_⟩⟩
  · exact ⟨hfin.page, hfin.pages, hfin.p, hfin.k, hfin.links, hfin.pageLinks, hfin.compress, hfin.encrypted, hfin.key, hfin.amap, hfin.outlines, hfin.fixed⟩
  · intro n n1 n2
    have hs := sAli_sub E last e6 hw.att.fix
    show (f.close E cb).pages.getD n [] = Proof.subst E (f.close E cb).m.aliasMap _
    rw [hfin.pages, hfin.amap, hs.1, hs.2]
    refine onPages_getD _ _ _ _ n1 ?_ ?_
    · exact Nat.le_trans n2 (Nat.le_of_eq hfin.page)
    · have h3 := (e8.page hf.page).1
      have h4 : n ≤ last.page := Nat.le_trans n2 (Nat.le_of_eq hfin.page)
      omega

end Verif.Proof
