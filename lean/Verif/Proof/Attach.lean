import Verif.Proof.Catalog
import Verif.Proof.OpEmits
/-
Attachments: the objects embedding them.
-/
namespace Verif.Proof
open Verif Verif.Model Verif.Spec

/-- The dictionary of the stream object holding a file. -/
def fileDict (E : Ext) (content : Bytes) : Bytes :=
  B "<< /Type /EmbeddedFile /Length " ++ natDec (E.deflate content).length ++ B " /Filter /FlateDecode /Params << /CheckSum <" ++ hexEnc (E.md5 content) ++ B "> /Size " ++ natDec content.length ++ B " >> >>\n\n"

/-- The text of a file specification whose stream is object `s`. -/
def filespecText (c1 : Bytes) (s : Nat) (c2 : Bytes) : Bytes :=
  B "<< /Type /Filespec /F () /UF " ++ textstringPlain c1 ++ B " /EF << /F " ++ natDec s ++ B " 0 R >> /Desc " ++ textstringPlain c2 ++ B "\n>>\n"

/-- The two objects that embed `a`; the file specification is object `n`. -/
structure EmbObjs (E : Ext) (pr : Protect) (n : Nat) (a : Attachment) (b1 b2 : Body) : Prop where
  file : ∃ data, b1 = .stream (fileDict E a.content) data ∧ Holds E.md5 pr (n - 1) (E.deflate a.content) data
  spec : ∃ c1 c2, b2 = .plain (filespecText c1 (n - 1) c2) ∧ Holds E.md5 pr n (u16 a.filename true) c1 ∧ (pr.encrypted = false → c2 = u16 a.description true)

theorem EmbObjs.of_wfix {E : Ext} {f g : Fpdf} (h : wfix g = wfix f) {n : Nat} {a : Attachment} {b1 b2 : Body} (hb : EmbObjs E g.m.protect n a b1 b2) : EmbObjs E f.m.protect n a b1 b2 := by
  obtain ⟨d, e1, h1⟩ := hb.file
  obtain ⟨c1, c2, e2, h2, h3⟩ := hb.spec
  exact ⟨⟨d, e1, h1.of_wfix h⟩, ⟨c1, c2, e2, h2.of_wfix h, fun he => h3 ((wfix_page h).2.2.2.2.2.2.1.trans he)⟩⟩

theorem writeCompressed_w (E : Ext) (f : Fpdf) (hs : f.state = 1) (hr : f.m.protect.rc4n ≤ f.n) (content : Bytes) :
    ∃ b', W f (f.writeCompressedFileObject E content) [.stream (fileDict E content) b'] ∧ Holds E.md5 f.m.protect (f.n + 1) (E.deflate content) b' := by
  have hs1 : f.newobj.state = 1 := (newobj_state f).trans hs
  have hm : f.newobj.m = f.m := (newobj_keeps f).2.2.2
  have pm : ∀ (g : Fpdf) s, (g.out s).m = g.m := by intro g s; unfold Fpdf.out; split <;> rfl
  unfold Fpdf.writeCompressedFileObject
  dsimp only
  have e : sprintf "<< /Type /EmbeddedFile /Length %d /Filter /FlateDecode /Params << /CheckSum <%s> /Size %d >> >>\n" [.d ((E.deflate content).length : Int), .s (hexEnc (E.md5 content)), .d (content.length : Int)] =
      B "<< /Type /EmbeddedFile /Length " ++ (intDec (E.deflate content).length ++ (B " /Filter /FlateDecode /Params << /CheckSum <" ++ (hexEnc (E.md5 content) ++ (B "> /Size " ++ (intDec content.length ++ B " >> >>\n"))))) :=
    sprintfB_of_render _ _ _ rfl
  have o1 := Out.out hs1 (sprintf "<< /Type /EmbeddedFile /Length %d /Filter /FlateDecode /Params << /CheckSum <%s> /Size %d >> >>\n" [.d ((E.deflate content).length : Int), .s (hexEnc (E.md5 content)), .d (content.length : Int)])
  have m1 : (f.newobj.outf "<< /Type /EmbeddedFile /Length %d /Filter /FlateDecode /Params << /CheckSum <%s> /Size %d >> >>\n" [.d ((E.deflate content).length : Int), .s (hexEnc (E.md5 content)), .d (content.length : Int)]).m = f.m := by
    unfold Fpdf.outf; rw [pm, hm]
  change Out f.newobj (f.newobj.outf _ _) _ at o1
  rw [e] at o1
  generalize f.newobj.outf "<< /Type /EmbeddedFile /Length %d /Filter /FlateDecode /Params << /CheckSum <%s> /Size %d >> >>\n" [.d ((E.deflate content).length : Int), .s (hexEnc (E.md5 content)), .d (content.length : Int)] = g at o1 m1 ⊢
  have ed : B "<< /Type /EmbeddedFile /Length " ++ (intDec (E.deflate content).length ++ (B " /Filter /FlateDecode /Params << /CheckSum <" ++ (hexEnc (E.md5 content) ++ (B "> /Size " ++ (intDec content.length ++ B " >> >>\n"))))) ++ [10] =
      fileDict E content := by
    unfold fileDict
    rw [intDec_ofNat, intDec_ofNat, show B " >> >>\n\n" = B " >> >>\n" ++ [10] from rfl]
    simp only [List.append_assoc]
  rw [ed] at o1
  refine W.streamEq E.md5 hs o1 ?_ (by rw [m1]) hr
  have hd := Declares_mk (B "<< /Type /EmbeddedFile ") (E.deflate content).length 32 (B "/Filter /FlateDecode /Params << /CheckSum <" ++ hexEnc (E.md5 content) ++ B "> /Size " ++ natDec content.length ++ B " >> >>\n\n") rfl
  have eq : B "<< /Type /EmbeddedFile " ++ B "/Length " ++ natDec (E.deflate content).length ++ 32 :: (B "/Filter /FlateDecode /Params << /CheckSum <" ++ hexEnc (E.md5 content) ++ B "> /Size " ++ natDec content.length ++ B " >> >>\n\n") = fileDict E content := by
    unfold fileDict
    rw [show B "<< /Type /EmbeddedFile /Length " = B "<< /Type /EmbeddedFile " ++ B "/Length " from rfl, show B " /Filter /FlateDecode /Params << /CheckSum <" = [32] ++ B "/Filter /FlateDecode /Params << /CheckSum <" from rfl]
    simp only [List.append_assoc, List.cons_append, List.nil_append]
  first
    | (rw [eq] at hd; exact hd)
    | (simp only [List.append_assoc] at hd eq; rw [eq] at hd; exact hd)

theorem out_l (f : Fpdf) (s : Bytes) : (f.out s).l = f.l := by unfold Fpdf.out; split <;> rfl
theorem textstring_l (md5 : Bytes → Bytes) (f : Fpdf) (s : Bytes) : (f.textstring md5 s).1.l = f.l := by unfold Fpdf.textstring; split <;> rfl
theorem putstream_l (md5 : Bytes → Bytes) (f : Fpdf) (s : Bytes) : (f.putstream md5 s).l = f.l := by
  unfold Fpdf.putstream Fpdf.outs
  dsimp only
  split <;> simp only [out_l]

theorem writeCompressed_l (E : Ext) (f : Fpdf) (c : Bytes) : (f.writeCompressedFileObject E c).l = f.l := by
  unfold Fpdf.writeCompressedFileObject Fpdf.outs Fpdf.outf
  simp only [out_l, putstream_l, (newobj_keeps f).1]

/-- Embedding an attachment that is not yet embedded. -/
theorem embed_w (E : Ext) (f : Fpdf) (hs : f.state = 1) (hr : f.m.protect.rc4n ≤ f.n) (a : Attachment) (h0 : a.objectNumber = 0) :
    ∃ b1 b2, W f (f.embed E a).1 [b1, b2] ∧ (f.embed E a).2 = { a with objectNumber := f.n + 2 } ∧ EmbObjs E f.m.protect (f.n + 2) a b1 b2 ∧ (f.embed E a).1.l = f.l := by
  unfold Fpdf.embed
  rw [if_neg (by simp [h0])]
  dsimp only
  have es : ({ f with state := 1 } : Fpdf) = f := by rw [← hs]
  rw [es]
  obtain ⟨b', w1, hb1⟩ := writeCompressed_w E f hs hr a.content
  have l1 := writeCompressed_l E f a.content
  generalize f.writeCompressedFileObject E a.content = g at w1 l1 ⊢
  have hs1 : g.state = 1 := w1.state.trans hs
  have hs2 : g.newobj.state = 1 := (newobj_state g).trans hs1
  have n1 : g.n = f.n + 1 := w1.n
  have n2 : g.newobj.n = f.n + 2 := by rw [(newobj_spec g hs1).2.1, n1]
  have r1 := w1.rc hr
  rw [n1]
  have l2 : g.newobj.l = f.l := (newobj_keeps g).1.trans l1
  have p2 := newobj_protect g
  have o0 : Out g.newobj (g.newobj.noteU16 a.filename) [] := ⟨by unfold Fpdf.noteU16; simp, rfl, id⟩
  have m0 : (g.newobj.noteU16 a.filename).m.protect = g.m.protect := p2
  have n0 : (g.newobj.noteU16 a.filename).n = f.n + 2 := n2
  have l0 : (g.newobj.noteU16 a.filename).l = f.l := l2
  generalize g.newobj.noteU16 a.filename = g0 at o0 m0 n0 l0 ⊢
  obtain ⟨c1, t1, t2, t3⟩ := textstring_holds E.md5 g0 (u16 a.filename true) (by rw [m0, n0]; omega)
  rw [m0, n0] at t3
  have l3 := textstring_l E.md5 g0 (u16 a.filename true)
  rw [t1]
  generalize (g0.textstring E.md5 (u16 a.filename true)).1 = g1 at t2 l3 ⊢
  have o1 : Out g1 (g1.noteU16 a.description) [] := ⟨by unfold Fpdf.noteU16; simp, rfl, id⟩
  have l4 : (g1.noteU16 a.description).l = f.l := l3.trans l0
  generalize g1.noteU16 a.description = g2 at o1 l4 ⊢
  obtain ⟨c2, u1, u2, u3, -⟩ := textstring_plain E.md5 g2 (u16 a.description true)
  have l5 := textstring_l E.md5 g2 (u16 a.description true)
  rw [u1]
  generalize (g2.textstring E.md5 (u16 a.description true)).1 = g3 at u2 l5 ⊢
  have oo := (o0.trans t2).trans (o1.trans u2)
  have e : sprintf "<< /Type /Filespec /F () /UF %s /EF << /F %d 0 R >> /Desc %s\n>>" [.s (textstringPlain c1), .d ((f.n + 1 : Nat) : Int), .s (textstringPlain c2)] =
      B "<< /Type /Filespec /F () /UF " ++ (textstringPlain c1 ++ (B " /EF << /F " ++ (intDec ((f.n + 1 : Nat) : Int) ++ (B " 0 R >> /Desc " ++ (textstringPlain c2 ++ B "\n>>"))))) := sprintfB_of_render _ _ _ rfl
  have oo2 := oo.o hs2 (sprintf "<< /Type /Filespec /F () /UF %s /EF << /F %d 0 R >> /Desc %s\n>>" [.s (textstringPlain c1), .d ((f.n + 1 : Nat) : Int), .s (textstringPlain c2)])
  have ed : [] ++ [] ++ ([] ++ []) ++ (sprintf "<< /Type /Filespec /F () /UF %s /EF << /F %d 0 R >> /Desc %s\n>>" [.s (textstringPlain c1), .d ((f.n + 1 : Nat) : Int), .s (textstringPlain c2)] ++ [10]) = filespecText c1 (f.n + 1) c2 := by
    rw [e, intDec_ofNat]
    unfold filespecText
    rw [show B "\n>>\n" = B "\n>>" ++ [10] from rfl]
    simp only [List.append_assoc, List.nil_append]
  rw [ed] at oo2
  change Out g.newobj (g3.outf "<< /Type /Filespec /F () /UF %s /EF << /F %d 0 R >> /Desc %s\n>>" [.s (textstringPlain c1), .d ((f.n + 1 : Nat) : Int), .s (textstringPlain c2)]) _ at oo2
  have l6 : (g3.outf "<< /Type /Filespec /F () /UF %s /EF << /F %d 0 R >> /Desc %s\n>>" [.s (textstringPlain c1), .d ((f.n + 1 : Nat) : Int), .s (textstringPlain c2)]).l = f.l := by
    unfold Fpdf.outf; rw [out_l, l5, l4]
  generalize g3.outf "<< /Type /Filespec /F () /UF %s /EF << /F %d 0 R >> /Desc %s\n>>" [.s (textstringPlain c1), .d ((f.n + 1 : Nat) : Int), .s (textstringPlain c2)] = g4 at oo2 l6 ⊢
  have w2 := W.plainEq hs1 oo2
  have es4 : (g4.outs "endobj").state = 1 := w2.state.trans hs1
  have en4 : (g4.outs "endobj").n = f.n + 2 := by rw [w2.n, n1]; rfl
  have l7 : (g4.outs "endobj").l = f.l := by unfold Fpdf.outs; rw [out_l, l6]
  generalize g4.outs "endobj" = g5 at w2 es4 en4 l7 ⊢
  have e5 : ({ g5 with state := f.state } : Fpdf) = g5 := by rw [hs, ← es4]
  rw [e5, en4]
  refine ⟨_, _, w1.trans w2, rfl, ⟨⟨b', rfl, hb1⟩, ⟨c1, c2, rfl, t3.of_wfix w1.fix, fun he => u3 ?_⟩⟩, l7⟩
  rw [o1.enc, t2.enc, m0]
  exact (wfix_page w1.fix).2.2.2.2.2.2.1.trans he

/-- `a` is embedded among the objects `objs` written from state `f` on; its file specification is object `n`. -/
def EmbAt (E : Ext) (f : Fpdf) (objs : List Body) (n : Nat) (a : Attachment) : Prop :=
  ∃ k b1 b2, n = f.n + k + 2 ∧ objs[k]? = some b1 ∧ objs[k + 1]? = some b2 ∧ EmbObjs E f.m.protect n a b1 b2

theorem EmbAt.left {E : Ext} {f : Fpdf} {o1 : List Body} {n : Nat} {a : Attachment} (h : EmbAt E f o1 n a) (o2 : List Body) : EmbAt E f (o1 ++ o2) n a := by
  obtain ⟨k, b1, b2, h1, h2, h3, h4⟩ := h
  have k1 := (List.getElem?_eq_some_iff.mp h2).1
  have k2 := (List.getElem?_eq_some_iff.mp h3).1
  exact ⟨k, b1, b2, h1, by rw [List.getElem?_append_left k1]; exact h2, by rw [List.getElem?_append_left k2]; exact h3, h4⟩

theorem EmbAt.right {E : Ext} {f g : Fpdf} {o1 o2 : List Body} (w : W f g o1) {n : Nat} {a : Attachment} (h : EmbAt E g o2 n a) : EmbAt E f (o1 ++ o2) n a := by
  obtain ⟨k, b1, b2, h1, h2, h3, h4⟩ := h
  refine ⟨o1.length + k, b1, b2, by rw [h1, w.n]; omega, ?_, ?_, h4.of_wfix w.fix⟩
  · rw [List.getElem?_append_right (by omega), Nat.add_sub_cancel_left]; exact h2
  · rw [List.getElem?_append_right (by omega), show o1.length + k + 1 - o1.length = k + 1 by omega]; exact h3

/-! ### Document attachments -/

/-- What the loop over the document attachments does. -/
structure DocAtt (E : Ext) (f : Fpdf) (l res : List Attachment) (objs : List Body) : Prop where
  len : res.length = l.length
  fresh : ∀ (i : Nat) a, l[i]? = some a → a.objectNumber = 0 → ∃ n, res[i]? = some { a with objectNumber := n } ∧ EmbAt E f objs n a
  kept : ∀ (i : Nat) a, l[i]? = some a → a.objectNumber ≠ 0 → res[i]? = some a
  inj : ∀ (i j : Nat) a b c, l[i]? = some a → l[j]? = some b → a.objectNumber = 0 → b.objectNumber = 0 → res[i]? = some c → ∀ d, res[j]? = some d → c.objectNumber = d.objectNumber → i = j
  only : ∀ j, j < objs.length → ∃ (i : Nat) (a : Attachment) (n : Nat), l[i]? = some a ∧ a.objectNumber = 0 ∧ res[i]? = some { a with objectNumber := n } ∧ (n = f.n + 1 + j ∨ n = f.n + 2 + j)

theorem putAttachmentsLoop_w (E : Ext) (l : List Attachment) : ∀ (f : Fpdf) (done : List Attachment), f.state = 1 → f.m.protect.rc4n ≤ f.n →
    ∃ objs res, W f (f.putAttachmentsLoop E done l).1 objs ∧ (f.putAttachmentsLoop E done l).2 = done ++ res ∧ (f.putAttachmentsLoop E done l).1.l = f.l ∧ DocAtt E f l res objs := by
  induction l with
  | nil =>
    intro f done hs hr
    exact ⟨[], [], W.refl f, by simp [Fpdf.putAttachmentsLoop], rfl, ⟨rfl, fun i a h => by simp at h, fun i a h => by simp at h, fun i j a b c h => by simp at h, fun j h => by simp at h⟩⟩
  | cons a r ih =>
    intro f done hs hr
    unfold Fpdf.putAttachmentsLoop
    by_cases h0 : a.objectNumber = 0
    · obtain ⟨b1, b2, w1, e1, h1, l1⟩ := embed_w E f hs hr a h0
      have eq : f.embed E a = ((f.embed E a).1, { a with objectNumber := f.n + 2 }) := by rw [← e1]
      rw [eq]
      dsimp only
      generalize (f.embed E a).1 = g at w1 l1 ⊢
      obtain ⟨objs, res, w2, e2, l2, hd⟩ := ih g (done ++ [{ a with objectNumber := f.n + 2 }]) (w1.state.trans hs) (w1.rc hr)
      have n1 : g.n = f.n + 2 := w1.n
      refine ⟨[b1, b2] ++ objs, { a with objectNumber := f.n + 2 } :: res, w1.trans w2, by rw [e2]; simp, l2.trans l1, ⟨by simp [hd.len], ?_, ?_, ?_, ?_⟩⟩
      · intro i x hi hx
        cases i with
        | zero =>
          simp at hi
          subst hi
          exact ⟨f.n + 2, rfl, EmbAt.left (o1 := [b1, b2]) ⟨0, b1, b2, rfl, rfl, rfl, h1⟩ objs⟩
        | succ i =>
          obtain ⟨n, q1, q2⟩ := hd.fresh i x (by simpa using hi) hx
          exact ⟨n, by simpa using q1, q2.right w1⟩
      · intro i x hi hx
        cases i with
        | zero => simp at hi; subst hi; exact absurd h0 hx
        | succ i => simpa using hd.kept i x (by simpa using hi) hx
      · have big : ∀ (i : Nat) x c, r[i]? = some x → x.objectNumber = 0 → res[i]? = some c → f.n + 2 < c.objectNumber := by
          intro i x c hx h0 hc
          obtain ⟨n, q1, k, _, _, q2, _⟩ := hd.fresh i x hx h0
          rw [q1] at hc
          cases hc
          show f.n + 2 < n
          omega
        intro i j x y c hi hj hx hy hc d hd' he
        cases i with
        | zero =>
          simp at hc
          cases j with
          | zero => rfl
          | succ j =>
            have := big j y d (by simpa using hj) hy (by simpa using hd')
            rw [← he, ← hc] at this
            simp at this
        | succ i =>
          cases j with
          | zero =>
            simp at hd'
            have := big i x c (by simpa using hi) hx (by simpa using hc)
            rw [he, ← hd'] at this
            simp at this
          | succ j =>
            rw [hd.inj i j x y c (by simpa using hi) (by simpa using hj) hx hy (by simpa using hc) d (by simpa using hd') he]
      · intro j hj
        by_cases hj2 : j < 2
        · exact ⟨0, a, f.n + 2, rfl, h0, rfl, by omega⟩
        · obtain ⟨i, x, n, q1, q2, q3, q4⟩ := hd.only (j - 2) (by simp at hj; omega)
          exact ⟨i + 1, x, n, by simpa using q1, q2, by simpa using q3, by omega⟩
    · have eq : f.embed E a = (f, a) := by unfold Fpdf.embed; rw [if_pos h0]
      rw [eq]
      dsimp only
      obtain ⟨objs, res, w2, e2, l2, hd⟩ := ih f (done ++ [a]) hs hr
      refine ⟨objs, a :: res, w2, by rw [e2]; simp, l2, ⟨by simp [hd.len], ?_, ?_, ?_, ?_⟩⟩
      · intro i x hi hx
        cases i with
        | zero => simp at hi; subst hi; exact absurd hx h0
        | succ i => simpa using hd.fresh i x (by simpa using hi) hx
      · intro i x hi hx
        cases i with
        | zero => simpa using hi
        | succ i => simpa using hd.kept i x (by simpa using hi) hx
      · intro i j x y c hi hj hx hy hc d hd' he
        cases i with
        | zero => simp at hi; subst hi; exact absurd hx h0
        | succ i =>
          cases j with
          | zero => simp at hj; subst hj; exact absurd hy h0
          | succ j =>
            rw [hd.inj i j x y c (by simpa using hi) (by simpa using hj) hx hy (by simpa using hc) d (by simpa using hd') he]
      · intro j hj
        obtain ⟨i, x, n, q1, q2, q3, q4⟩ := hd.only j hj
        exact ⟨i + 1, x, n, by simpa using q1, q2, by simpa using q3, q4⟩

/-! ### Attachment annotations -/

/-- What embedding the attachments with the given pointers does. -/
structure PtrAtt (E : Ext) (f g : Fpdf) (ptrs : List Nat) (objs : List Body) : Prop where
  fresh : ∀ p a, p ∈ ptrs → lookup p f.l.heap = some a → a.objectNumber = 0 → ∃ n, lookup p g.l.heap = some { a with objectNumber := n } ∧ EmbAt E f objs n a
  kept : ∀ p a, lookup p f.l.heap = some a → p ∉ ptrs ∨ a.objectNumber ≠ 0 → lookup p g.l.heap = some a
  inj : ∀ p q a b c d, p ∈ ptrs → q ∈ ptrs → lookup p f.l.heap = some a → lookup q f.l.heap = some b → a.objectNumber = 0 → b.objectNumber = 0 →
    lookup p g.l.heap = some c → lookup q g.l.heap = some d → c.objectNumber = d.objectNumber → p = q
  only : ∀ j, j < objs.length → ∃ p a n, p ∈ ptrs ∧ lookup p f.l.heap = some a ∧ a.objectNumber = 0 ∧ lookup p g.l.heap = some { a with objectNumber := n } ∧ (n = f.n + 1 + j ∨ n = f.n + 2 + j)
  attach : g.l.attachments = f.l.attachments

theorem embedPtrs_w (E : Ext) (ptrs : List Nat) : ∀ (f : Fpdf), f.state = 1 → f.m.protect.rc4n ≤ f.n →
    ∃ objs, W f (ptrs.foldl (fun f p => f.embedPtr E p) f) objs ∧ PtrAtt E f (ptrs.foldl (fun f p => f.embedPtr E p) f) ptrs objs := by
  induction ptrs with
  | nil =>
    intro f hs hr
    exact ⟨[], W.refl f, ⟨fun p a h => by simp at h, fun p a h _ => h, fun p q a b c d h => by simp at h, fun j h => by simp at h, rfl⟩⟩
  | cons p r ih =>
    intro f hs hr
    rw [List.foldl_cons]
    cases hl : lookup p f.l.heap with
    | none =>
      have ee : f.embedPtr E p = { f with panicked := true } := by unfold Fpdf.embedPtr; rw [hl]
      rw [ee]
      have w0 : W f { f with panicked := true } [] :=
        ⟨by simp [objsBytes], by simp, rfl, fun h => ⟨h, by simp, Nat.le_refl _⟩, fun _ _ => rfl, by simp, by simp, id⟩
      obtain ⟨objs, w2, hd⟩ := ih { f with panicked := true } hs hr
      refine ⟨_, w0.trans w2, ⟨?_, ?_, ?_, ?_, hd.attach⟩⟩
      · intro q a hq hla ha
        have hqp : q ≠ p := by intro h; subst h; rw [hl] at hla; cases hla
        exact hd.fresh q a ((List.mem_cons.mp hq).resolve_left hqp) hla ha
      · intro q a hla hq
        exact hd.kept q a hla (hq.imp (fun h h' => h (List.mem_cons_of_mem _ h')) id)
      · intro q q' a b c d hq hq' ha hb
        have n1 : q ≠ p := by intro h; subst h; rw [hl] at ha; cases ha
        have n2 : q' ≠ p := by intro h; subst h; rw [hl] at hb; cases hb
        exact hd.inj q q' a b c d ((List.mem_cons.mp hq).resolve_left n1) ((List.mem_cons.mp hq').resolve_left n2) ha hb
      · intro j hj
        obtain ⟨q, a, n, q1, q2⟩ := hd.only j hj
        exact ⟨q, a, n, List.mem_cons_of_mem _ q1, q2⟩
    | some a =>
      by_cases h0 : a.objectNumber = 0
      · obtain ⟨b1, b2, w1, e1, h1, l1⟩ := embed_w E f hs hr a h0
        have ee : f.embedPtr E p = { (f.embed E a).1 with l.heap := Model.insert p { a with objectNumber := f.n + 2 } f.l.heap } := by
          unfold Fpdf.embedPtr; rw [hl]; dsimp only; rw [e1, l1]
        rw [ee]
        generalize hg : ({ (f.embed E a).1 with l.heap := Model.insert p { a with objectNumber := f.n + 2 } f.l.heap } : Fpdf) = g
        have w1' : W f g [b1, b2] := by
          rw [← hg]
          exact ⟨w1.buf, w1.n, (show _ = wfix (f.embed E a).1 from rfl).trans w1.fix, w1.len, w1.old, w1.new, w1.ok, w1.rc⟩
        have hh : g.l.heap = Model.insert p { a with objectNumber := f.n + 2 } f.l.heap := by rw [← hg]
        have ha : g.l.attachments = f.l.attachments := by rw [← hg]; show (f.embed E a).1.l.attachments = _; rw [l1]
        obtain ⟨objs, w2, hd⟩ := ih g (w1'.state.trans hs) (w1'.rc hr)
        have n1 : g.n = f.n + 2 := w1'.n
        have hp : lookup p g.l.heap = some { a with objectNumber := f.n + 2 } := by rw [hh]; exact lookup_insert_self _ _ _
        have hp2 := hd.kept p _ hp (.inr (by simp))
        have hne : ∀ q, q ≠ p → lookup q g.l.heap = lookup q f.l.heap := fun q hq => by rw [hh]; exact lookup_insert_ne _ _ hq
        refine ⟨_, w1'.trans w2, ⟨?_, ?_, ?_, ?_, hd.attach.trans ha⟩⟩
        · intro q x hq hla hx
          by_cases hqp : q = p
          · subst hqp
            rw [hl] at hla
            cases hla
            exact ⟨f.n + 2, hp2, EmbAt.left (o1 := [b1, b2]) ⟨0, b1, b2, rfl, rfl, rfl, h1⟩ objs⟩
          · obtain ⟨n, q1, q2⟩ := hd.fresh q x ((List.mem_cons.mp hq).resolve_left hqp) ((hne q hqp).trans hla) hx
            exact ⟨n, q1, q2.right w1'⟩
        · intro q x hla hq
          have hqp : q ≠ p := by
            rintro rfl
            rw [hl] at hla
            cases hla
            exact hq.elim (fun h => h (List.mem_cons_self ..)) (fun h => h h0)
          exact hd.kept q x ((hne q hqp).trans hla) (hq.imp (fun h h' => h (List.mem_cons_of_mem _ h')) id)
        · generalize List.foldl (fun f p => f.embedPtr E p) g r = g2 at hd hp2 ⊢
          have big : ∀ q x c, q ∈ p :: r → q ≠ p → lookup q f.l.heap = some x → x.objectNumber = 0 → lookup q g2.l.heap = some c → f.n + 2 < c.objectNumber := by
            intro q x c hq hqp hx h0 hc
            obtain ⟨n, q1, k, _, _, q2, _⟩ := hd.fresh q x ((List.mem_cons.mp hq).resolve_left hqp) ((hne q hqp).trans hx) h0
            rw [q1] at hc
            cases hc
            show f.n + 2 < n
            omega
          intro q q' x y c d hq hq' hx hy x0 y0 hc hd' he
          by_cases h1 : q = p
          · by_cases h2 : q' = p
            · exact h1.trans h2.symm
            · have := big q' y d hq' h2 hy y0 hd'
              rw [h1, hp2] at hc
              cases hc
              rw [← he] at this
              simp at this
          · by_cases h2 : q' = p
            · have := big q x c hq h1 hx x0 hc
              rw [h2, hp2] at hd'
              cases hd'
              rw [he] at this
              simp at this
            · exact hd.inj q q' x y c d ((List.mem_cons.mp hq).resolve_left h1) ((List.mem_cons.mp hq').resolve_left h2) ((hne q h1).trans hx) ((hne q' h2).trans hy) x0 y0 hc hd' he
        · intro j hj
          by_cases hj2 : j < 2
          · exact ⟨p, a, f.n + 2, List.mem_cons_self .., hl, h0, hp2, by omega⟩
          · obtain ⟨q, x, n, q1, q2, q3, q4, q5⟩ := hd.only (j - 2) (by simp at hj; omega)
            have hqp : q ≠ p := by
              rintro rfl
              rw [hp] at q2
              cases q2
              simp at q3
            exact ⟨q, x, n, List.mem_cons_of_mem _ q1, (hne q hqp).symm.trans q2, q3, q4, by omega⟩
      · have ee : f.embedPtr E p = { f with l.heap := Model.insert p a f.l.heap } := by
          unfold Fpdf.embedPtr Fpdf.embed; rw [hl]; dsimp only; rw [if_pos h0]
        rw [ee]
        have w0 : W f { f with l.heap := Model.insert p a f.l.heap } [] :=
          ⟨by simp [objsBytes], by simp, rfl, fun h => ⟨h, by simp, Nat.le_refl _⟩, fun _ _ => rfl, by simp, by simp, id⟩
        have hh : ∀ q, lookup q (Model.insert p a f.l.heap) = lookup q f.l.heap := by
          intro q
          by_cases hqp : q = p
          · subst hqp; rw [lookup_insert_self, hl]
          · exact lookup_insert_ne _ _ hqp
        obtain ⟨objs, w2, hd⟩ := ih { f with l.heap := Model.insert p a f.l.heap } hs hr
        refine ⟨_, w0.trans w2, ⟨?_, ?_, ?_, ?_, hd.attach⟩⟩
        · intro q x hq hla hx
          have hqp : q ≠ p := by
            rintro rfl
            rw [hl] at hla
            cases hla
            exact h0 hx
          exact hd.fresh q x ((List.mem_cons.mp hq).resolve_left hqp) ((hh q).trans hla) hx
        · intro q x hla hq
          by_cases hx : x.objectNumber = 0
          · refine hd.kept q x ((hh q).trans hla) (.inl fun h => ?_)
            exact (hq.resolve_right (fun h' => h' hx)) (List.mem_cons_of_mem _ h)
          · exact hd.kept q x ((hh q).trans hla) (.inr hx)
        · intro q q' x y c d hq hq' hx hy x0 y0
          have n1 : q ≠ p := by rintro rfl; rw [hl] at hx; cases hx; exact h0 x0
          have n2 : q' ≠ p := by rintro rfl; rw [hl] at hy; cases hy; exact h0 y0
          exact hd.inj q q' x y c d ((List.mem_cons.mp hq).resolve_left n1) ((List.mem_cons.mp hq').resolve_left n2) ((hh q).trans hx) ((hh q').trans hy) x0 y0
        · intro j hj
          obtain ⟨q, x, n, q1, q2, q3⟩ := hd.only j hj
          exact ⟨q, x, n, List.mem_cons_of_mem _ q1, (hh q).symm.trans q2, q3⟩

end Verif.Proof
