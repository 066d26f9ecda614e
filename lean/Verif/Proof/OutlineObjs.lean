import Verif.Proof.PageObjs
import Verif.Proof.Keep
import Verif.Proof.Bookmarks
import Verif.Proof.Escape
/-
The outline objects in the file.
-/
namespace Verif.Proof
open Verif Verif.Model Verif.Spec

/-- The links in the form of the specification. -/
def linksOf (o : OutLinks) : ItemLinks := ⟨o.parent, o.prev, o.next, o.first, o.last⟩

/-- What an optional reference writes. -/
theorem optRef_out {f g : Fpdf} {b : Bytes} (h : Out f g b) (hs : f.state = 1) (n : Nat) (key : Bytes) (m : Option Nat) (fmt : String)
    (hk : ∀ i : Nat, sprintf fmt [.d ((n + i : Nat) : Int)] ++ [10] = key ++ natDec (n + i) ++ B " 0 R\n") :
    Out f (g.outRef fmt n m) (b ++ refEntry key n m) := by
  cases m with
  | none => simp only [refEntry, List.append_nil]; exact h
  | some i =>
    have := h.o hs (sprintf fmt [.d ((n + i : Nat) : Int)])
    rw [hk i, natDec_decimal] at this
    exact this

theorem ref_key (pre : String) (key : Bytes) (n : Nat) (h : sprintf (pre ++ "%d 0 R") [.d (n : Int)] = key ++ (intDec (n : Int) ++ B " 0 R")) :
    sprintf (pre ++ "%d 0 R") [.d (n : Int)] ++ [10] = key ++ natDec n ++ B " 0 R\n" := by
  rw [h, intDec_ofNat]
  simp only [List.append_assoc]; rfl

theorem textstring_holds (md5 : Bytes → Bytes) (f : Fpdf) (s : Bytes) (hr : f.m.protect.rc4n < f.n) :
    ∃ c, (f.textstring md5 s).2 = textstringPlain c ∧ Out f (f.textstring md5 s).1 [] ∧ Holds md5 f.m.protect f.n s c := by
  unfold Fpdf.textstring
  by_cases he : f.m.protect.encrypted = true
  · rw [if_pos he]
    dsimp only
    refine ⟨_, rfl, ⟨by simp, ofix_protect f _ (rc4_fix _ _ _ _), rc4_ok _ _ _⟩, ?_⟩
    unfold Holds decryptIn
    rw [if_pos he, rc4_fresh md5 _ _ _ (.inr (by omega))]
    exact rc4Crypt_involutive _ _
  · rw [if_neg he]
    exact ⟨s, rfl, Out.refl f, by unfold Holds; rw [if_neg he]⟩

theorem newobj_protect (f : Fpdf) : f.newobj.m.protect = f.m.protect := by
  unfold Fpdf.newobj Fpdf.outf Fpdf.out; dsimp only; split <;> rfl
theorem newobj_p (f : Fpdf) : f.newobj.p = f.p := by
  unfold Fpdf.newobj Fpdf.outf Fpdf.out; dsimp only; split <;> rfl
theorem newobj_k (f : Fpdf) : f.newobj.k = f.k := by
  unfold Fpdf.newobj Fpdf.outf Fpdf.out; dsimp only; split <;> rfl

theorem Out.pk {f g : Fpdf} {b : Bytes} (h : Out f g b) : g.p = f.p ∧ g.k = f.k := by
  refine ⟨?_, ?_⟩
  · have := congrArg (fun x : Fpdf => x.p) h.fix; exact this
  · have := congrArg (fun x : Fpdf => x.k) h.fix; exact this

/-- The part of the text of an outline item before the destination. -/
def outHead (n : Nat) (k : OutLinks) (lit : Bytes) : Bytes :=
  B "<</Title " ++ lit ++ B "\n/Parent " ++ decimal (n + k.parent) ++ B " 0 R\n" ++ refEntry (B "/Prev ") n k.prev ++ refEntry (B "/Next ") n k.next
    ++ refEntry (B "/First ") n k.first ++ refEntry (B "/Last ") n k.last

/-- One outline item. -/
theorem putOutline_w (E : Ext) (n : Nat) (f : Fpdf) (o : OutlineRec) (k : OutLinks) (hs : f.state = 1) (hr : f.m.protect.rc4n ≤ f.n) :
    ∃ c, W f (f.putOutline E n (o, k)) [.plain (outlineText n (linksOf k) (textstringPlain c) (1 + 2 * o.p) (fmtF 2 ((f.p.h - o.y) * f.k)))] ∧
      Holds E.md5 f.m.protect (f.n + 1) o.text c := by
  have hs1 : f.newobj.state = 1 := (newobj_state f).trans hs
  have hn1 := (newobj_spec f hs).2.1
  obtain ⟨c, h1, h2, h3⟩ := textstring_holds E.md5 f.newobj o.text (by rw [newobj_protect, hn1]; omega)
  rw [newobj_protect, hn1] at h3
  refine ⟨c, ?_, h3⟩
  unfold Fpdf.putOutline
  dsimp only
  rw [h1]
  unfold Fpdf.outs Fpdf.outf
  generalize (f.newobj.textstring E.md5 o.text).1 = g at h2 ⊢
  have e1 : sprintf "<</Title %s" [.s (textstringPlain c)] = B "<</Title " ++ (textstringPlain c ++ []) := sprintfB_of_render _ _ _ rfl
  have e2 : sprintf "/Parent %d 0 R" [.d ((n + k.parent : Nat) : Int)] = B "/Parent " ++ (intDec ((n + k.parent : Nat) : Int) ++ B " 0 R") := sprintfB_of_render _ _ _ rfl
  have h4 := (h2.o hs1 (sprintf "<</Title %s" [.s (textstringPlain c)])).o hs1 (sprintf "/Parent %d 0 R" [.d ((n + k.parent : Nat) : Int)])
  have h5 := optRef_out h4 hs1 n (B "/Prev ") k.prev "/Prev %d 0 R" (fun i => ref_key "/Prev " _ _ (sprintfB_of_render _ _ _ rfl))
  have h6 := optRef_out h5 hs1 n (B "/Next ") k.next "/Next %d 0 R" (fun i => ref_key "/Next " _ _ (sprintfB_of_render _ _ _ rfl))
  have h7 := optRef_out h6 hs1 n (B "/First ") k.first "/First %d 0 R" (fun i => ref_key "/First " _ _ (sprintfB_of_render _ _ _ rfl))
  have h8 := optRef_out h7 hs1 n (B "/Last ") k.last "/Last %d 0 R" (fun i => ref_key "/Last " _ _ (sprintfB_of_render _ _ _ rfl))
  have eh : ([] ++ (sprintf "<</Title %s" [.s (textstringPlain c)] ++ [10]) ++ (sprintf "/Parent %d 0 R" [.d ((n + k.parent : Nat) : Int)] ++ [10])
      ++ refEntry (B "/Prev ") n k.prev ++ refEntry (B "/Next ") n k.next ++ refEntry (B "/First ") n k.first ++ refEntry (B "/Last ") n k.last)
      = outHead n k (textstringPlain c) := by
    rw [e1, e2, intDec_ofNat, natDec_decimal]
    unfold outHead
    rw [show B "\n/Parent " = [10] ++ B "/Parent " from rfl, show B " 0 R\n" = B " 0 R" ++ [10] from rfl]
    simp only [List.append_assoc, List.nil_append]
  rw [eh] at h8
  revert h8
  generalize Fpdf.outRef _ "/Last %d 0 R" n k.last = g2
  intro h8
  obtain ⟨p1, p2⟩ := h8.pk
  rw [newobj_p] at p1
  rw [newobj_k] at p2
  have e3 : ∀ (m : Nat) (y : Rat), sprintf "/Dest [%d 0 R /XYZ 0 %.2f null]" [.d (m : Int), .f y] = B "/Dest [" ++ (intDec (m : Int) ++ (B " 0 R /XYZ 0 " ++ (fmtF 2 y ++ B " null]"))) :=
    fun m y => sprintfB_of_render _ _ _ rfl
  have h9 := (h8.o hs1 (sprintf "/Dest [%d 0 R /XYZ 0 %.2f null]" [.d ((1 + 2 * o.p : Nat) : Int), .f ((g2.p.h - o.y) * g2.k)])).o hs1 (B "/Count 0>>")
  have e4 : outHead n k (textstringPlain c) ++ (sprintf "/Dest [%d 0 R /XYZ 0 %.2f null]" [.d ((1 + 2 * o.p : Nat) : Int), .f ((g2.p.h - o.y) * g2.k)] ++ [10]) ++ (B "/Count 0>>" ++ [10])
      = outlineText n (linksOf k) (textstringPlain c) (1 + 2 * o.p) (fmtF 2 ((f.p.h - o.y) * f.k)) := by
    rw [e3, intDec_ofNat, natDec_decimal, p1, p2]
    unfold outlineText outHead linksOf
    rw [show B " null]\n/Count 0>>\n" = B " null]" ++ [10] ++ B "/Count 0>>" ++ [10] from rfl]
    simp only [List.append_assoc]
  rw [e4] at h9
  have he := Out.out (h9.state.trans hs1) (B "endobj")
  exact W.obj hs (g := _) (b := .plain _) (h9.trans he) trivial rfl rfl rfl rfl id

theorem putOutlines_w (E : Ext) (n : Nat) (l : List (OutlineRec × OutLinks)) : ∀ (f : Fpdf), f.state = 1 → f.m.protect.rc4n ≤ f.n →
    ∃ objs, W f (l.foldl (Fpdf.putOutline E n) f) objs ∧ objs.length = l.length ∧ ∀ i o k, l[i]? = some (o, k) →
      ∃ c, objs[i]? = some (.plain (outlineText n (linksOf k) (textstringPlain c) (1 + 2 * o.p) (fmtF 2 ((f.p.h - o.y) * f.k)))) ∧ Holds E.md5 f.m.protect (f.n + 1 + i) o.text c := by
  induction l with
  | nil => intro f hs hr; exact ⟨[], W.refl f, rfl, by intro i o k h; simp at h⟩
  | cons a l ih =>
    intro f hs hr
    obtain ⟨o, k⟩ := a
    obtain ⟨c, w1, h1⟩ := putOutline_w E n f o k hs hr
    obtain ⟨objs, w2, hl, h2⟩ := ih _ (w1.state.trans hs) (w1.rc hr)
    refine ⟨_, w1.trans w2, by simp [hl, Nat.add_comm], ?_⟩
    intro i o' k' hi
    cases i with
    | zero =>
      simp only [List.getElem?_cons_zero, Option.some.injEq, Prod.mk.injEq] at hi
      obtain ⟨rfl, rfl⟩ := hi
      exact ⟨c, rfl, h1⟩
    | succ i =>
      obtain ⟨c', h3, h4⟩ := h2 i o' k' (by simpa using hi)
      obtain ⟨p1, _, p2, _⟩ := wfix_page w1.fix
      refine ⟨c', ?_, ?_⟩
      · rw [p1, p2] at h3
        simpa using h3
      · have h5 := Holds.of_wfix w1.fix h4
        rw [w1.n] at h5
        simp only [List.length_singleton] at h5
        rw [show f.n + 1 + 1 + i = f.n + 1 + (i + 1) by omega] at h5
        exact h5

theorem outLoop_length (nb : Nat) (l : List Int) : ∀ (i : Nat) (s : OutSt), (outLoop nb i l s).links.length = s.links.length := by
  induction l with
  | nil => intro i s; rfl
  | cons a l ih =>
    intro i s
    unfold outLoop
    rw [ih]
    unfold outStep
    dsimp only
    have key : ∀ (c : Prop) [Decidable c] (a b : List OutLinks), (if c then a else b).length = if c then a.length else b.length := by
      intro c _ a b; split <;> rfl
    simp only [key, modLink_length, ite_self]

theorem outlineLinks_length (l : List Int) : (outlineLinks l).links.length = l.length := by
  unfold outlineLinks
  dsimp only
  rw [outLoop_length]; simp

/-- The text of the root of the outline. -/
def rootText (a b : Nat) : Bytes := B "<</Type /Outlines /First " ++ decimal a ++ B " 0 R\n/Last " ++ decimal b ++ B " 0 R>>\n"

/-- The outline objects written in state `f`. -/
structure BkObjs (E : Ext) (f : Fpdf) (Bk : List Body) : Prop where
  none : f.l.outlines = [] → Bk = []
  some : f.l.outlines ≠ [] → ∃ objs, Bk = objs ++ [.plain (rootText (f.n + 1) (f.n + 1 + (outlineLinks (f.l.outlines.map (·.level))).lastTop))] ∧ objs.length = f.l.outlines.length ∧
      ∀ i o, f.l.outlines[i]? = some o → ∃ c, objs[i]? = some (.plain (outlineText (f.n + 1) (linksOf ((outlineLinks (f.l.outlines.map (·.level))).links.getD i {}))
        (textstringPlain c) (1 + 2 * o.p) (fmtF 2 ((f.p.h - o.y) * f.k)))) ∧ Holds E.md5 f.m.protect (f.n + 1 + i) o.text c

/-- An object whose number is noted somewhere first. -/
theorem W.noted {f g h : Fpdf} {b : Body} (hs : f.state = 1) (h1 : wfix g = wfix f.newobj) (h2 : g.buffer = f.newobj.buffer) (h3 : g.n = f.newobj.n)
    (h4 : g.offsets = f.newobj.offsets) (h5 : RcOk f.newobj g) (ho : Out g h (b.bytes ++ B "endobj\n")) (hok : b.Ok) : W f h [b] := by
  let g0 : Fpdf := { f.newobj with buffer := f.newobj.buffer ++ (b.bytes ++ B "endobj\n") }
  refine W.obj hs (g := g0) ⟨rfl, rfl, id⟩ hok ((wfix_of_ofix ho.fix).trans h1) ?_ (ho.n.trans h3) (ho.offsets.trans h4) (fun h => ho.rc (h5 h))
  rw [ho.buf, h2]

theorem outRoot_w (g : Fpdf) (hgs : g.state = 1) (a b : Nat) :
    W g (((({ g.newobj with m.outlineRoot := g.newobj.n } : Fpdf).outf "<</Type /Outlines /First %d 0 R" [.d (a : Int)]).outf "/Last %d 0 R>>" [.d (b : Int)]).outs "endobj")
      [.plain (rootText a b)] := by
  have hs1 : g.newobj.state = 1 := (newobj_state g).trans hgs
  refine W.noted hgs (g := { g.newobj with m.outlineRoot := g.newobj.n }) rfl rfl rfl rfl id ?_ trivial
  generalize hg1 : ({ g.newobj with m.outlineRoot := g.newobj.n } : Fpdf) = g1
  have hg1 : g1.state = 1 := by rw [← hg1]; exact hs1
  have e1 : sprintf "<</Type /Outlines /First %d 0 R" [.d (a : Int)] = B "<</Type /Outlines /First " ++ (intDec (a : Int) ++ B " 0 R") := sprintfB_of_render _ _ _ rfl
  have e2 : sprintf "/Last %d 0 R>>" [.d (b : Int)] = B "/Last " ++ (intDec (b : Int) ++ B " 0 R>>") := sprintfB_of_render _ _ _ rfl
  have ho := (((Out.refl g1).o hg1 (sprintf "<</Type /Outlines /First %d 0 R" [.d (a : Int)])).o hg1 (sprintf "/Last %d 0 R>>" [.d (b : Int)])).o hg1 (B "endobj")
  have e3 : [] ++ (sprintf "<</Type /Outlines /First %d 0 R" [.d (a : Int)] ++ [10]) ++ (sprintf "/Last %d 0 R>>" [.d (b : Int)] ++ [10]) ++ (B "endobj" ++ [10])
      = (Body.plain (rootText a b)).bytes ++ B "endobj\n" := by
    rw [e1, e2, intDec_ofNat, intDec_ofNat, natDec_decimal, natDec_decimal]
    unfold Body.bytes rootText
    rw [show B " 0 R\n/Last " = B " 0 R" ++ [10] ++ B "/Last " from rfl, show B " 0 R>>\n" = B " 0 R>>" ++ [10] from rfl, show B "endobj\n" = B "endobj" ++ [10] from rfl]
    simp only [List.append_assoc, List.nil_append]
  rw [e3] at ho
  exact ho

theorem putbookmarks_w (E : Ext) (f : Fpdf) (hs : f.state = 1) (hr : f.m.protect.rc4n ≤ f.n) : ∃ Bk, W f (f.putbookmarks E) Bk ∧ BkObjs E f Bk := by
  unfold Fpdf.putbookmarks
  by_cases h0 : f.l.outlines = []
  · rw [if_neg (by simp [h0])]
    exact ⟨[], W.refl f, fun _ => rfl, fun h => absurd h0 h⟩
  · rw [if_pos (by simpa [List.length_pos_iff] using h0)]
    dsimp only
    obtain ⟨objs, w1, hl, h1⟩ := putOutlines_w E (f.n + 1) (f.l.outlines.zip (outlineLinks (f.l.outlines.map (·.level))).links) f hs hr
    generalize List.foldl (Fpdf.putOutline E (f.n + 1)) f (f.l.outlines.zip (outlineLinks (f.l.outlines.map (·.level))).links) = g at w1 ⊢
    have hgs := w1.state.trans hs
    refine ⟨_, w1.trans (outRoot_w g hgs _ _), fun h => absurd h h0, fun _ => ⟨objs, rfl, ?_, ?_⟩⟩
    · rw [hl, List.length_zip, outlineLinks_length]; simp
    · intro i o hi
      refine h1 i o _ ?_
      have hlt : i < f.l.outlines.length := by
        by_contra hc
        rw [List.getElem?_eq_none (by omega)] at hi
        exact absurd hi (by simp)
      rw [List.getElem?_zip_eq_some]
      refine ⟨hi, ?_⟩
      rw [List.getD_eq_getElem?_getD, List.getElem?_eq_getElem (by rw [outlineLinks_length]; simpa using hlt)]
      simp

end Verif.Proof
