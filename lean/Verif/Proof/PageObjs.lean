import Verif.Proof.Stages
/-
The objects of the pages, exactly.
-/
namespace Verif.Proof
open Verif Verif.Model Verif.Spec

/-- A plain object whose contents begin as given. -/
theorem W.plainPre {f g h : Fpdf} {pre : Bytes} (hs : f.state = 1) (h1 : Out f.newobj g pre) (h2 : Pl g h) :
    ∃ r, W f (h.outs "endobj") [.plain (pre ++ r)] := by
  have hs1 : f.newobj.state = 1 := (newobj_state f).trans hs
  obtain ⟨r, hr⟩ := h2.o (h1.state.trans hs1)
  have ho := Out.out (hr.state.trans (h1.state.trans hs1)) (B "endobj")
  have hh := (h1.trans hr).trans ho
  refine ⟨r, W.obj hs (g := h.outs "endobj") (b := .plain (pre ++ r)) ?_ trivial rfl rfl rfl rfl id⟩
  exact hh

/-- A plain object whose contents are given. -/
theorem W.plainEq {f g : Fpdf} {b : Bytes} (hs : f.state = 1) (h1 : Out f.newobj g b) : W f (g.outs "endobj") [.plain b] := by
  have hs1 : f.newobj.state = 1 := (newobj_state f).trans hs
  have ho := Out.out (h1.state.trans hs1) (B "endobj")
  exact W.obj hs (g := g.outs "endobj") (b := .plain b) (h1.trans ho) trivial rfl rfl rfl rfl id

/-- The stream data `b'` of object `n` holds `data`: as it is, or encrypted in a protected document. -/
def Holds (md5 : Bytes → Bytes) (pr : Protect) (n : Nat) (data b' : Bytes) : Prop :=
  if pr.encrypted then decryptIn md5 pr.encryptionKey n b' = data else b' = data

/-- A stream object. -/
theorem W.streamEq {f g : Fpdf} {d data : Bytes} (md5 : Bytes → Bytes) (hs : f.state = 1) (h1 : Out f.newobj g d) (hd : Declares d data.length)
    (hp : g.m.protect = f.m.protect) (hr : f.m.protect.rc4n ≤ f.n) :
    ∃ b', W f ((g.putstream md5 data).outs "endobj") [.stream d b'] ∧ Holds md5 f.m.protect (f.n + 1) data b' := by
  have hs1 : f.newobj.state = 1 := (newobj_state f).trans hs
  have hn : g.n = f.n + 1 := h1.n.trans (newobj_spec f hs).2.1
  obtain ⟨b', ho, hl, hb⟩ := putstream_out md5 g (h1.state.trans hs1) data
  have he := Out.out (ho.state.trans (h1.state.trans hs1)) (B "endobj")
  have hh := (h1.trans ho).trans he
  have e : d ++ (B "stream\n" ++ b' ++ B "\nendstream\n") ++ (B "endobj" ++ [10]) = (Body.stream d b').bytes ++ B "endobj\n" := by
    unfold Body.bytes
    rw [show B "endobj\n" = B "endobj" ++ [10] from rfl]
    simp only [List.append_assoc]
  rw [e] at hh
  refine ⟨b', W.obj hs (b := .stream d b') hh ?_ rfl rfl rfl rfl id, ?_⟩
  · show Declares d b'.length
    rw [hl]; exact hd
  · unfold Holds
    rw [hp, hn] at hb
    split
    · next h =>
      rw [if_pos h] at hb
      rw [hb]
      unfold decryptIn
      rw [rc4_fresh md5 _ _ _ (.inr (by omega))]
      exact rc4Crypt_involutive _ _
    · next h => rw [if_neg h] at hb; exact hb

/-! ### Contents -/

/-- The dictionary and the data of a content stream before encryption. -/
def contentDict (E : Ext) (compress : Bool) (b : Bytes) : Bytes :=
  if compress then B "<</Filter /FlateDecode /Length " ++ natDec (E.deflate b).length ++ B ">>\n" else B "<</Length " ++ natDec b.length ++ B ">>\n"

def contentData (E : Ext) (compress : Bool) (b : Bytes) : Bytes := if compress then E.deflate b else b

theorem putContent_w (E : Ext) (f : Fpdf) (hs : f.state = 1) (hr : f.m.protect.rc4n ≤ f.n) (b : Bytes) :
    ∃ b', W f (f.putContent E b) [.stream (contentDict E f.m.compress b) b'] ∧ Holds E.md5 f.m.protect (f.n + 1) (contentData E f.m.compress b) b' := by
  have hs1 : f.newobj.state = 1 := (newobj_state f).trans hs
  have hc : f.newobj.m = f.m := by unfold Fpdf.newobj Fpdf.outf Fpdf.out; dsimp only; split <;> rfl
  have ho : ∀ (g : Fpdf) s, (g.out s).m = g.m := by intro g s; unfold Fpdf.out; split <;> rfl
  unfold Fpdf.putContent
  dsimp only
  rw [hc]
  by_cases h : f.m.compress = true
  · rw [if_pos h]
    have e : sprintf "<</Filter /FlateDecode /Length %d>>" [.d (E.deflate b).length] ++ [10] = contentDict E true b := by
      have : sprintf "<</Filter /FlateDecode /Length %d>>" [.d (E.deflate b).length] = B "<</Filter /FlateDecode /Length " ++ (intDec (E.deflate b).length ++ B ">>") :=
        sprintfB_of_render _ _ _ rfl
      rw [this, intDec_ofNat]
      unfold contentDict
      rw [if_pos rfl, show B ">>\n" = B ">>" ++ [10] from rfl]
      simp only [List.append_assoc]
    have h1 := Out.out hs1 (sprintf "<</Filter /FlateDecode /Length %d>>" [.d (E.deflate b).length])
    rw [e] at h1
    rw [h]
    refine W.streamEq E.md5 hs h1 ?_ (by unfold Fpdf.outf; rw [ho, hc]) hr
    unfold contentDict
    rw [if_pos rfl]
    exact Declares_mk (B "<</Filter /FlateDecode ") _ 62 (B ">\n") rfl
  · rw [if_neg h]
    have hf : f.m.compress = false := by simpa using h
    have e : sprintf "<</Length %d>>" [.d b.length] ++ [10] = contentDict E false b := by
      have : sprintf "<</Length %d>>" [.d b.length] = B "<</Length " ++ (intDec b.length ++ B ">>") := sprintfB_of_render _ _ _ rfl
      rw [this, intDec_ofNat]
      unfold contentDict
      rw [if_neg (by simp), show B ">>\n" = B ">>" ++ [10] from rfl]
      simp only [List.append_assoc]
    have h1 := Out.out hs1 (sprintf "<</Length %d>>" [.d b.length])
    rw [e] at h1
    rw [hf]
    refine W.streamEq E.md5 hs h1 ?_ (by unfold Fpdf.outf; rw [ho, hc]) hr
    unfold contentDict
    rw [if_neg (by simp)]
    exact Declares_mk (B "<<") _ 62 (B ">\n") rfl

/-! ### Links -/

/-- The annotation of a link with an internal destination. -/
def linkText (pl : LinkRec) (page : Nat) (y : Rat) : Bytes :=
  sprintf "<</Type /Annot /Subtype /Link /Rect [%.2f %.2f %.2f %.2f] /Border [0 0 0] " [.f pl.x, .f pl.y, .f (pl.x + pl.wd), .f (pl.y - pl.ht)]
    ++ (B "/Dest [" ++ natDec (1 + 2 * page) ++ B " 0 R /XYZ 0 " ++ fmtF 2 y ++ B " null]>>")

/-- The annotation of a link to a URI. -/
def uriText (pl : LinkRec) (c : Bytes) : Bytes :=
  sprintf "<</Type /Annot /Subtype /Link /Rect [%.2f %.2f %.2f %.2f] /Border [0 0 0] " [.f pl.x, .f pl.y, .f (pl.x + pl.wd), .f (pl.y - pl.ht)]
    ++ (B "/A <</S /URI /URI " ++ textstringPlain c ++ B ">>>>")

/-- The height of a page in points. -/
def pageHt (sizes : List (Nat × Size)) (hPt : Rat) (page : Nat) : Rat :=
  match lookup page sizes with
  | some sz => sz.ht
  | none => hPt

theorem textstring_keeps (md5 : Bytes → Bytes) (f : Fpdf) (b : Bytes) : (f.textstring md5 b).1.l = f.l ∧ (f.textstring md5 b).1.p = f.p ∧ (f.textstring md5 b).1.k = f.k := by
  unfold Fpdf.textstring
  split <;> exact ⟨rfl, rfl, rfl⟩

theorem textstring_form (md5 : Bytes → Bytes) (f : Fpdf) (s : Bytes) : ∃ c, (f.textstring md5 s).2 = textstringPlain c ∧ (f.m.protect.encrypted = false → c = s) ∧
    (f.textstring md5 s).1.l = f.l ∧ (f.textstring md5 s).1.m.protect.encrypted = f.m.protect.encrypted := by
  unfold Fpdf.textstring
  by_cases he : f.m.protect.encrypted = true
  · rw [if_pos he]
    refine ⟨_, rfl, fun h => (by rw [he] at h; cases h), rfl, ?_⟩
    have e : ∀ p : Protect, (Protect.rc4 md5 p f.n s).1.encrypted = p.encrypted := by
      intro p; unfold Protect.rc4; repeat' split
      all_goals first | rfl | (dsimp only; split <;> rfl)
    exact e _
  · rw [if_neg he]
    exact ⟨s, rfl, fun _ => rfl, rfl, rfl⟩

/-- The annotation `t` is the one for the link `pl`. -/
def LinkIs (sizes : List (Nat × Size)) (k : Rat) (links : List (Nat × Rat)) (enc : Bool) (hPt : Rat) (pl : LinkRec) (t : Bytes) : Prop :=
  if pl.link = 0 then ∃ c, t = uriText pl c ∧ (enc = false → c = pl.linkStr)
  else ∀ page y, links[pl.link]? = some (page, y) → t = linkText pl page (pageHt sizes hPt page - y * k)

theorem linkAnnot_text (E : Ext) (hPt : Rat) (s : Fpdf × Bytes) (pl : LinkRec) :
    ∃ t, (Fpdf.linkAnnot E hPt s pl).2 = s.2 ++ t ∧ (Fpdf.linkAnnot E hPt s pl).1.l = s.1.l ∧ (Fpdf.linkAnnot E hPt s pl).1.p = s.1.p ∧
      (Fpdf.linkAnnot E hPt s pl).1.k = s.1.k ∧ (Fpdf.linkAnnot E hPt s pl).1.m.protect.encrypted = s.1.m.protect.encrypted ∧
      LinkIs s.1.p.pageSizes s.1.k s.1.l.links s.1.m.protect.encrypted hPt pl t := by
  obtain ⟨f, o⟩ := s
  unfold Fpdf.linkAnnot LinkIs
  dsimp only
  by_cases h0 : pl.link = 0
  · simp only [if_pos h0]
    obtain ⟨h1, h2, h3⟩ := textstring_keeps E.md5 f pl.linkStr
    obtain ⟨c, q1, q2, -, q4⟩ := textstring_form E.md5 f pl.linkStr
    refine ⟨_, List.append_assoc _ _ _, h1, h2, h3, q4, c, ?_, q2⟩
    have e : sprintf "/A <</S /URI /URI %s>>>>" [.s (f.textstring E.md5 pl.linkStr).2] = B "/A <</S /URI /URI " ++ ((f.textstring E.md5 pl.linkStr).2 ++ B ">>>>") := sprintfB_of_render _ _ _ rfl
    rw [e, q1]
    unfold uriText
    simp only [List.append_assoc]
  · simp only [if_neg h0]
    cases hl : f.l.links[pl.link]? with
    | none => exact ⟨_, rfl, rfl, rfl, rfl, rfl, fun page y h => by cases h⟩
    | some py =>
      obtain ⟨page, y⟩ := py
      refine ⟨_, List.append_assoc _ _ _, rfl, rfl, rfl, rfl, ?_⟩
      intro page' y' he
      cases he
      unfold linkText pageHt
      congr 1
      generalize (match lookup page f.p.pageSizes with | some sz => sz.ht | none => hPt) - y * f.k = Y
      have : sprintf "/Dest [%d 0 R /XYZ 0 %.2f null]>>" [.d (1 + 2 * page : Nat), .f Y] =
          B "/Dest [" ++ (intDec (1 + 2 * page : Nat) ++ (B " 0 R /XYZ 0 " ++ (fmtF 2 Y ++ B " null]>>"))) := sprintfB_of_render _ _ _ rfl
      rw [this, intDec_ofNat]
      simp only [List.append_assoc]

/-- All links of a page, in order. -/
theorem linkAnnots_all (E : Ext) (hPt : Rat) (pls : List LinkRec) : ∀ s : Fpdf × Bytes,
    ∃ ts, (pls.foldl (Fpdf.linkAnnot E hPt) s).2 = s.2 ++ ts.flatten ∧ List.Forall₂ (LinkIs s.1.p.pageSizes s.1.k s.1.l.links s.1.m.protect.encrypted hPt) pls ts := by
  induction pls with
  | nil => intro s; exact ⟨[], by simp, .nil⟩
  | cons p r ih =>
    intro s
    obtain ⟨t, h1, h2, h3, h4, h5, h6⟩ := linkAnnot_text E hPt s p
    obtain ⟨ts, k1, k2⟩ := ih (Fpdf.linkAnnot E hPt s p)
    rw [h2, h3, h4, h5] at k2
    exact ⟨t :: ts, by rw [List.foldl_cons, k1, h1, List.append_assoc]; rfl, .cons h6 k2⟩

theorem linkIs_mem {sizes : List (Nat × Size)} {k : Rat} {links : List (Nat × Rat)} {enc : Bool} {hPt : Rat} {pls : List LinkRec} {ts : List Bytes} (h : List.Forall₂ (LinkIs sizes k links enc hPt) pls ts) :
    ∀ pl ∈ pls, pl.link ≠ 0 → ∀ page y, links[pl.link]? = some (page, y) → ∃ u v, ts.flatten = u ++ linkText pl page (pageHt sizes hPt page - y * k) ++ v := by
  induction h with
  | nil => intro pl hpl; cases hpl
  | @cons a t l ts h1 h2 ih =>
    intro pl hpl h0 page y hy
    rcases List.mem_cons.mp hpl with rfl | hpl
    · unfold LinkIs at h1
      rw [if_neg h0] at h1
      exact ⟨[], ts.flatten, by rw [← h1 page y hy]; rfl⟩
    · obtain ⟨u, v, huv⟩ := ih pl hpl h0 page y hy
      exact ⟨t ++ u, v, by rw [List.flatten_cons, huv]; simp only [List.append_assoc]⟩

/-- The annotation for an attachment whose file specification is object `n`. -/
def attachText (an : AnnotAttach) (c1 c2 : Bytes) (n : Nat) : Bytes :=
  B "<< /Type /Annot /Subtype /FileAttachment /Rect [" ++ fmtF 2 an.x ++ B " " ++ fmtF 2 an.y ++ B " " ++ fmtF 2 (an.x + an.w) ++ B " " ++ fmtF 2 (an.y - an.h) ++ B "] /Border [0 0 0]\n/Contents " ++
    textstringPlain c1 ++ B " /T " ++ textstringPlain c2 ++ B " /AP << /N << /Type /XObject /Subtype /Form /BBox [" ++ fmtF 2 an.x ++ B " " ++ fmtF 2 an.y ++ B " " ++ fmtF 2 (an.x + an.w) ++ B " " ++
    fmtF 2 (an.y - an.h) ++ B "] /Length 0 >>\nstream\nendstream>>/FS " ++ natDec n ++ B " 0 R >>\n"

theorem attachAnnot_text (E : Ext) (f : Fpdf) (o : Bytes) (an : AnnotAttach) (a : Attachment) (h : lookup an.ptr f.l.heap = some a) :
    ∃ c1 c2, (Fpdf.attachAnnot E (f, o) an).2 = o ++ attachText an c1 c2 a.objectNumber ∧ (f.m.protect.encrypted = false → c1 = u16 a.description true ∧ c2 = u16 a.filename true) := by
  unfold Fpdf.attachAnnot
  dsimp only
  rw [h]
  dsimp only
  obtain ⟨c1, t1, t2, t3, t4⟩ := textstring_form E.md5 (f.noteU16 a.description) (u16 a.description true)
  have t5 : (f.noteU16 a.description).m.protect.encrypted = f.m.protect.encrypted := rfl
  rw [t1]
  generalize ((f.noteU16 a.description).textstring E.md5 (u16 a.description true)).1 = g at t3 t4 ⊢
  obtain ⟨c2, u1, u2, u3, u4⟩ := textstring_form E.md5 (g.noteU16 a.filename) (u16 a.filename true)
  have u5 : (g.noteU16 a.filename).m.protect.encrypted = g.m.protect.encrypted := rfl
  rw [u1]
  refine ⟨c1, c2, ?_, fun he => ⟨t2 (t5.trans he), u2 (u5.trans (t4.trans (t5.trans he)))⟩⟩
  have e1 : sprintf "<< /Type /XObject /Subtype /Form /BBox [%.2f %.2f %.2f %.2f] /Length 0 >>" [.f an.x, .f an.y, .f (an.x + an.w), .f (an.y - an.h)] =
    B "<< /Type /XObject /Subtype /Form /BBox [" ++ (fmtF 2 an.x ++ (B " " ++ (fmtF 2 an.y ++ (B " " ++ (fmtF 2 (an.x + an.w) ++ (B " " ++ (fmtF 2 (an.y - an.h) ++ B "] /Length 0 >>"))))))) := sprintfB_of_render _ _ _ rfl
  have e2 : sprintf "<< /Type /Annot /Subtype /FileAttachment /Rect [%.2f %.2f %.2f %.2f] /Border [0 0 0]\n" [.f an.x, .f an.y, .f (an.x + an.w), .f (an.y - an.h)] =
    B "<< /Type /Annot /Subtype /FileAttachment /Rect [" ++ (fmtF 2 an.x ++ (B " " ++ (fmtF 2 an.y ++ (B " " ++ (fmtF 2 (an.x + an.w) ++ (B " " ++ (fmtF 2 (an.y - an.h) ++ B "] /Border [0 0 0]\n"))))))) := sprintfB_of_render _ _ _ rfl
  have e3 : ∀ x : Bytes, sprintf "/Contents %s " [.s x] = B "/Contents " ++ (x ++ B " ") := fun x => sprintfB_of_render _ _ _ rfl
  have e4 : ∀ x : Bytes, sprintf "/T %s " [.s x] = B "/T " ++ (x ++ B " ") := fun x => sprintfB_of_render _ _ _ rfl
  have e5 : ∀ x : Bytes, sprintf "/AP << /N %s>>" [.s x] = B "/AP << /N " ++ (x ++ B ">>") := fun x => sprintfB_of_render _ _ _ rfl
  have e6 : ∀ m : Nat, sprintf "/FS %d 0 R >>\n" [.d (m : Int)] = B "/FS " ++ (intDec m ++ B " 0 R >>\n") := fun m => sprintfB_of_render _ _ _ rfl
  rw [e1, e2, e3, e4, e5, e6, intDec_ofNat]
  unfold attachText
  rw [show B "] /Border [0 0 0]\n/Contents " = B "] /Border [0 0 0]\n" ++ B "/Contents " from rfl, show B " /T " = B " " ++ B "/T " from rfl,
    show B " /AP << /N << /Type /XObject /Subtype /Form /BBox [" = B " " ++ (B "/AP << /N " ++ B "<< /Type /XObject /Subtype /Form /BBox [") from rfl,
    show B "] /Length 0 >>\nstream\nendstream>>/FS " = B "] /Length 0 >>" ++ (B "\nstream\nendstream" ++ (B ">>" ++ B "/FS ")) from rfl]
  simp only [List.append_assoc]

theorem attachAnnot_fix (E : Ext) (s : Fpdf × Bytes) (an : AnnotAttach) : (Fpdf.attachAnnot E s an).1.l = s.1.l ∧ (Fpdf.attachAnnot E s an).1.m.protect.encrypted = s.1.m.protect.encrypted := by
  obtain ⟨f, o⟩ := s
  unfold Fpdf.attachAnnot
  dsimp only
  cases h : lookup an.ptr f.l.heap with
  | none => exact ⟨rfl, rfl⟩
  | some a =>
    dsimp only
    obtain ⟨c1, t1, t2, t3, t4⟩ := textstring_form E.md5 (f.noteU16 a.description) (u16 a.description true)
    generalize (f.noteU16 a.description).textstring E.md5 (u16 a.description true) = q at t3 t4 ⊢
    obtain ⟨c2, u1, u2, u3, u4⟩ := textstring_form E.md5 (q.1.noteU16 a.filename) (u16 a.filename true)
    exact ⟨u3.trans t3, u4.trans t4⟩

theorem linkAnnot_fix (E : Ext) (hPt : Rat) (s : Fpdf × Bytes) (pl : LinkRec) : (Fpdf.linkAnnot E hPt s pl).1.l = s.1.l ∧ (Fpdf.linkAnnot E hPt s pl).1.m.protect.encrypted = s.1.m.protect.encrypted := by
  obtain ⟨f, o⟩ := s
  unfold Fpdf.linkAnnot
  dsimp only
  split
  · obtain ⟨c1, t1, t2, t3, t4⟩ := textstring_form E.md5 f pl.linkStr
    exact ⟨t3, t4⟩
  · split <;> exact ⟨rfl, rfl⟩

theorem foldl_fix {α} (F : Fpdf × Bytes → α → Fpdf × Bytes) (h : ∀ s a, (F s a).1.l = s.1.l ∧ (F s a).1.m.protect.encrypted = s.1.m.protect.encrypted) (l : List α) (s : Fpdf × Bytes) :
    (l.foldl F s).1.l = s.1.l ∧ (l.foldl F s).1.m.protect.encrypted = s.1.m.protect.encrypted := by
  induction l generalizing s with
  | nil => exact ⟨rfl, rfl⟩
  | cons a l ih => exact ⟨(ih _).1.trans (h s a).1, (ih _).2.trans (h s a).2⟩

theorem attachAnnots_text (E : Ext) (l : List AnnotAttach) : ∀ s : Fpdf × Bytes, ∃ t, (l.foldl (Fpdf.attachAnnot E) s).2 = s.2 ++ t ∧
    ∀ an ∈ l, ∀ a, lookup an.ptr s.1.l.heap = some a → ∃ u v c1 c2, t = u ++ attachText an c1 c2 a.objectNumber ++ v ∧
      (s.1.m.protect.encrypted = false → c1 = u16 a.description true ∧ c2 = u16 a.filename true) := by
  induction l with
  | nil => intro s; exact ⟨[], by simp, by simp⟩
  | cons p r ih =>
    intro s
    obtain ⟨t, ht, hall⟩ := ih (Fpdf.attachAnnot E s p)
    obtain ⟨x1, x2⟩ := attachAnnot_fix E s p
    rw [x1, x2] at hall
    have h : ∃ t0, (Fpdf.attachAnnot E s p).2 = s.2 ++ t0 := by
      obtain ⟨f, o⟩ := s
      unfold Fpdf.attachAnnot
      dsimp only
      split
      · exact ⟨[], by simp⟩
      · exact ⟨_, by simp only [List.append_assoc]; rfl⟩
    obtain ⟨t0, h0⟩ := h
    refine ⟨t0 ++ t, by rw [List.foldl_cons, ht, h0, List.append_assoc], ?_⟩
    intro an han a ha
    rcases List.mem_cons.mp han with rfl | han
    · obtain ⟨f, o⟩ := s
      obtain ⟨c1, c2, q1, q2⟩ := attachAnnot_text E f o an a ha
      rw [q1] at h0
      have := List.append_cancel_left h0
      exact ⟨[], t, c1, c2, by rw [← this]; simp, q2⟩
    · obtain ⟨u, v, c1, c2, q1, q2⟩ := hall an han a ha
      exact ⟨t0 ++ u, v, c1, c2, by rw [q1]; simp only [List.append_assoc], q2⟩

theorem textstring_buf (md5 : Bytes → Bytes) (f : Fpdf) (b : Bytes) : (f.textstring md5 b).1.buffer = f.buffer := by
  unfold Fpdf.textstring
  split <;> rfl

theorem foldl_buf {α} (F : Fpdf × Bytes → α → Fpdf × Bytes) (h : ∀ s a, (F s a).1.buffer = s.1.buffer) (l : List α) (s : Fpdf × Bytes) :
    (l.foldl F s).1.buffer = s.1.buffer := by
  induction l generalizing s with
  | nil => rfl
  | cons a l ih => exact (ih _).trans (h s a)

theorem linkAnnot_buf (E : Ext) (hPt : Rat) (s : Fpdf × Bytes) (pl : LinkRec) : (Fpdf.linkAnnot E hPt s pl).1.buffer = s.1.buffer := by
  obtain ⟨f, o⟩ := s
  unfold Fpdf.linkAnnot
  dsimp only
  split
  · exact textstring_buf _ _ _
  · split <;> rfl

theorem attachAnnot_buf (E : Ext) (s : Fpdf × Bytes) (an : AnnotAttach) : (Fpdf.attachAnnot E s an).1.buffer = s.1.buffer := by
  obtain ⟨f, o⟩ := s
  unfold Fpdf.attachAnnot
  dsimp only
  split
  · rfl
  · exact (textstring_buf _ _ _).trans (textstring_buf _ _ _)

/-- The annotations `annots` of page `n` include those for the attachments. -/
def AnnotsFor (L : LinkSt) (enc : Bool) (n : Nat) (annots : Bytes) : Prop :=
  ∀ an ∈ L.pageAttachments.getD n [], ∀ a, lookup an.ptr L.heap = some a → ∃ u v c1 c2, annots = B "/Annots [" ++ u ++ attachText an c1 c2 a.objectNumber ++ v ∧
    (enc = false → c1 = u16 a.description true ∧ c2 = u16 a.filename true)

/-- The annotations `annots` of page `n` are those for its links, in order, and then those for its attachments. -/
def LinksFor (L : LinkSt) (f : Fpdf) (hPt : Rat) (n : Nat) (annots : Bytes) : Prop :=
  ∃ ts att, List.Forall₂ (LinkIs f.p.pageSizes f.k f.l.links f.m.protect.encrypted hPt) (f.l.pageLinks.getD n []) ts ∧ (L.pageAttachments.getD n [] = [] → att = []) ∧
    (annots = B "/Annots [" ++ ts.flatten ++ att ++ B "]\n" ∨ (annots = [] ∧ ts = [] ∧ att = []))

/-- The entry of a page box. -/
def boxText (t : Bytes) (pb : PageBox) : Bytes :=
  B "/" ++ t ++ B " [" ++ fmtF 2 pb.x ++ B " " ++ fmtF 2 pb.y ++ B " " ++ fmtF 2 pb.wd ++ B " " ++ fmtF 2 pb.ht ++ B "]\n"

/-- The entries of the page boxes. -/
def boxesText (boxes : List (Bytes × PageBox)) (ks : List Bytes) : Bytes :=
  ks.flatMap fun t => match lookup t boxes with | some pb => boxText t pb | none => []

theorem boxes_out (boxes : List (Bytes × PageBox)) (ks : List Bytes) : ∀ g : Fpdf, g.state = 1 → Out g (ks.foldl (fun f t =>
    match lookup t boxes with
    | some pb => f.outf "/%s [%.2f %.2f %.2f %.2f]" [.s t, .f pb.x, .f pb.y, .f pb.wd, .f pb.ht]
    | none => f) g) (boxesText boxes ks) := by
  induction ks with
  | nil => intro g _; exact Out.refl g
  | cons t r ih =>
    intro g hs
    rw [List.foldl_cons]
    unfold boxesText
    rw [List.flatMap_cons]
    cases hl : lookup t boxes with
    | none => exact ih g hs
    | some pb =>
      dsimp only
      have e : sprintf "/%s [%.2f %.2f %.2f %.2f]" [.s t, .f pb.x, .f pb.y, .f pb.wd, .f pb.ht] =
        B "/" ++ (t ++ (B " [" ++ (fmtF 2 pb.x ++ (B " " ++ (fmtF 2 pb.y ++ (B " " ++ (fmtF 2 pb.wd ++ (B " " ++ (fmtF 2 pb.ht ++ B "]"))))))))) := sprintfB_of_render _ _ _ rfl
      have h1 := Out.out hs (sprintf "/%s [%.2f %.2f %.2f %.2f]" [.s t, .f pb.x, .f pb.y, .f pb.wd, .f pb.ht])
      have h2 := h1.trans (ih _ (h1.state.trans hs))
      have e2 : sprintf "/%s [%.2f %.2f %.2f %.2f]" [.s t, .f pb.x, .f pb.y, .f pb.wd, .f pb.ht] ++ [10] = boxText t pb := by
        rw [e]
        unfold boxText
        rw [show B "]\n" = B "]" ++ [10] from rfl]
        simp only [List.append_assoc]
      rw [e2] at h2
      exact h2

theorem putAnnots_out (E : Ext) (hPt : Rat) (g : Fpdf) (hs : g.state = 1) (n : Nat) :
    ∃ a, Out g (g.putAnnots E hPt n) a ∧ (∀ pl ∈ g.l.pageLinks.getD n [], pl.link ≠ 0 → ∀ page y, g.l.links[pl.link]? = some (page, y) →
      ∃ u v, a = B "/Annots [" ++ u ++ linkText pl page (pageHt g.p.pageSizes hPt page - y * g.k) ++ v) ∧ AnnotsFor g.l g.m.protect.encrypted n a ∧ LinksFor g.l g hPt n a := by
  unfold Fpdf.putAnnots
  dsimp only
  split
  · next hlen =>
    obtain ⟨ts, h1, h2⟩ := linkAnnots_all E hPt (g.l.pageLinks.getD n []) (g, B "/Annots [")
    have hfix := foldl_fix _ (linkAnnot_fix E hPt) (g.l.pageLinks.getD n []) (g, B "/Annots [")
    obtain ⟨t2, h3, h4⟩ := attachAnnots_text E (g.l.pageAttachments.getD n []) ((g.l.pageLinks.getD n []).foldl (Fpdf.linkAnnot E hPt) (g, B "/Annots ["))
    rw [hfix.1, hfix.2] at h4
    have hatt : g.l.pageAttachments.getD n [] = [] → t2 = [] := by
      intro e
      rw [e] at h3
      exact List.append_cancel_left (h3.symm.trans (List.append_nil _).symm)
    have hp := foldl_pl _ (fun f s a h => attachAnnot_pl E s h a) (g.l.pageAttachments.getD n []) g _
      (foldl_pl _ (fun f s a h => linkAnnot_pl E hPt s h a) (g.l.pageLinks.getD n []) g (g, B "/Annots [") (Pl.refl g))
    have hbuf := (foldl_buf _ (attachAnnot_buf E) (g.l.pageAttachments.getD n []) ((g.l.pageLinks.getD n []).foldl (Fpdf.linkAnnot E hPt) (g, B "/Annots ["))).trans
      (foldl_buf _ (linkAnnot_buf E hPt) (g.l.pageLinks.getD n []) (g, B "/Annots ["))
    generalize (List.foldl (Fpdf.attachAnnot E) ((g.l.pageLinks.getD n []).foldl (Fpdf.linkAnnot E hPt) (g, B "/Annots [")) (g.l.pageAttachments.getD n [])) = q at h3 hp hbuf ⊢
    obtain ⟨b0, hb0⟩ := hp.o hs
    have hb : b0 = [] := by
      have := hb0.buf
      rw [hbuf] at this
      exact List.append_cancel_left (this.symm.trans (List.append_nil _).symm)
    subst hb
    have ho := Out.out (hb0.state.trans hs) (q.2 ++ B "]")
    refine ⟨_, hb0.trans ho, ?_, ?_, ts, t2, h2, hatt, .inl (by rw [h3, h1, show B "]\n" = B "]" ++ [10] from rfl]; simp only [List.append_assoc, List.nil_append])⟩
    · intro pl hpl h0 page y hy
      obtain ⟨u, v, huv⟩ := linkIs_mem h2 pl hpl h0 page y hy
      refine ⟨u, v ++ t2 ++ B "]" ++ [10], ?_⟩
      rw [h3, h1, huv]
      simp only [List.append_assoc, List.nil_append]
    · intro an han a ha
      obtain ⟨u, v, c1, c2, q1, q2⟩ := h4 an han a ha
      refine ⟨ts.flatten ++ u, v ++ B "]" ++ [10], c1, c2, ?_, q2⟩
      rw [h3, h1, q1]
      simp only [List.append_assoc, List.nil_append]
  · next hlen =>
    refine ⟨[], Out.refl g, ?_, ?_, [], [], ?_, fun _ => rfl, .inr ⟨rfl, rfl, rfl⟩⟩
    rotate_left 2
    · have : g.l.pageLinks.getD n [] = [] := List.eq_nil_of_length_eq_zero (by omega)
      rw [this]
      exact .nil
    · intro pl hpl
      have : g.l.pageLinks.getD n [] = [] := List.eq_nil_of_length_eq_zero (by omega)
      rw [this] at hpl; simp at hpl
    · intro an han
      have : g.l.pageAttachments.getD n [] = [] := List.eq_nil_of_length_eq_zero (by omega)
      rw [this] at han; simp at han

/-! ### The page dictionary -/

/-- The MediaBox entry of page `n`. -/
def mediaText (sizes : List (Nat × Size)) (n : Nat) : Bytes :=
  match lookup n sizes with
  | some sz => B "/MediaBox [0 0 " ++ fmtF 2 sz.wd ++ B " " ++ fmtF 2 sz.ht ++ B "]\n"
  | none => []

/-- The parts of the document that the page dictionary depends on are kept. -/
theorem newobj_keeps (f : Fpdf) : f.newobj.l = f.l ∧ f.newobj.p = f.p ∧ f.newobj.k = f.k ∧ f.newobj.m = f.m := by
  unfold Fpdf.newobj Fpdf.outf Fpdf.out
  dsimp only
  split <;> exact ⟨rfl, rfl, rfl, rfl⟩

theorem Out.l {f g : Fpdf} {b : Bytes} (h : Out f g b) : g.l = f.l := by have := congrArg (fun x : Fpdf => x.l) h.fix; exact this
theorem Out.p {f g : Fpdf} {b : Bytes} (h : Out f g b) : g.p = f.p := by have := congrArg (fun x : Fpdf => x.p) h.fix; exact this
theorem Out.k {f g : Fpdf} {b : Bytes} (h : Out f g b) : g.k = f.k := by have := congrArg (fun x : Fpdf => x.k) h.fix; exact this

theorem mediaBox_text (wd ht : Rat) : sprintf "/MediaBox [0 0 %.2f %.2f]" [.f wd, .f ht] = B "/MediaBox [0 0 " ++ (fmtF 2 wd ++ (B " " ++ (fmtF 2 ht ++ B "]"))) :=
  sprintfB_of_render _ _ _ rfl

/-- The contents of the page dictionary of page `n`, written as object `j`. -/
structure PageDict (E : Ext) (L : LinkSt) (f : Fpdf) (hPt : Rat) (n j : Nat) (b : Bytes) : Prop where
  shape : ∃ mid annots group, b = B "<</Type /Page\n/Parent 1 0 R\n" ++ mediaText f.p.pageSizes n ++ mid ++ B "/Resources 2 0 R\n" ++ annots ++ group ++
    (B "/Contents " ++ natDec (j + 1) ++ B " 0 R>>\n") ∧
    (∀ pl ∈ f.l.pageLinks.getD n [], pl.link ≠ 0 → ∀ page y, f.l.links[pl.link]? = some (page, y) →
      ∃ u v, annots = B "/Annots [" ++ u ++ linkText pl page (pageHt f.p.pageSizes hPt page - y * f.k) ++ v) ∧ AnnotsFor L f.m.protect.encrypted n annots ∧ LinksFor L f hPt n annots ∧
    mid = boxesText ((lookup n f.p.pageBoxes).getD []) (E.ord (1000 + n) (keys ((lookup n f.p.pageBoxes).getD [])))

theorem putPageDict_w (E : Ext) (hPt : Rat) (f : Fpdf) (hs : f.state = 1) (n : Nat) :
    ∃ b, W f (f.putPageDict E hPt n) [.plain b] ∧ PageDict E f.l f hPt n (f.n + 1) b ∧ (f.putPageDict E hPt n).l = f.l := by
  have hs1 : f.newobj.state = 1 := (newobj_state f).trans hs
  obtain ⟨k1, k2, k3, k4⟩ := newobj_keeps f
  unfold Fpdf.putPageDict
  dsimp only
  have h1 : Out f.newobj ((f.newobj.outs "<</Type /Page").outs "/Parent 1 0 R") _ := (Out.out hs1 (B "<</Type /Page")).o hs1 (B "/Parent 1 0 R")
  generalize ((f.newobj.outs "<</Type /Page").outs "/Parent 1 0 R") = g1 at h1 ⊢
  have h2 : Out g1 (g1.putMediaBox n) (mediaText f.p.pageSizes n) := by
    unfold mediaText Fpdf.putMediaBox
    rw [h1.p, k2]
    cases lookup n f.p.pageSizes with
    | none => exact Out.refl g1
    | some sz =>
      have := Out.out (h1.state.trans hs1) (sprintf "/MediaBox [0 0 %.2f %.2f]" [.f sz.wd, .f sz.ht])
      rw [mediaBox_text] at this
      dsimp only
      unfold Fpdf.outf
      rw [mediaBox_text, show B "]\n" = B "]" ++ [10] from rfl]
      simp only [List.append_assoc] at this ⊢
      exact this
  generalize g1.putMediaBox n = g2 at h2 ⊢
  have h12 := h1.trans h2
  have h3 : Out g2 (g2.putPageBoxes E n) (boxesText ((lookup n g2.p.pageBoxes).getD []) (E.ord (1000 + n) (keys ((lookup n g2.p.pageBoxes).getD [])))) :=
    boxes_out _ _ g2 (h12.state.trans hs1)
  rw [h12.p, k2] at h3
  generalize g2.putPageBoxes E n = g3 at h3 ⊢
  obtain ⟨mid, hmid⟩ : ∃ mid, mid = boxesText ((lookup n f.p.pageBoxes).getD []) (E.ord (1000 + n) (keys ((lookup n f.p.pageBoxes).getD []))) := ⟨_, rfl⟩
  rw [← hmid] at h3
  have h4 := (h12.trans h3).o hs1 (B "/Resources 2 0 R")
  change Out f.newobj (g3.outs "/Resources 2 0 R") _ at h4
  generalize g3.outs "/Resources 2 0 R" = g4 at h4 ⊢
  obtain ⟨annots, h5, ha⟩ := putAnnots_out E hPt g4 (h4.state.trans hs1) n
  have h45 := h4.trans h5
  generalize g4.putAnnots E hPt n = g5 at h5 h45 ⊢
  have h6 : Pl g5 (if g5.m.pdfVersion > 3 then g5.outs "/Group <</Type /Group /S /Transparency /CS /DeviceRGB>>" else g5) := by ps
  generalize (if g5.m.pdfVersion > 3 then g5.outs "/Group <</Type /Group /S /Transparency /CS /DeviceRGB>>" else g5) = g6 at h6 ⊢
  obtain ⟨group, h6⟩ := h6.o (h45.state.trans hs1)
  have h7 := (h45.trans h6).o hs1 (sprintf "/Contents %d 0 R>>" [.d (g6.n + 1 : Nat)])
  have hw := W.plainEq hs h7
  refine ⟨_, hw, ⟨mid, annots, group, ?_, ?_⟩, ?_⟩
  · have hn : g6.n = f.n + 1 := (h45.trans h6).n.trans (newobj_spec f hs).2.1
    have e : sprintf "/Contents %d 0 R>>" [.d (f.n + 1 + 1 : Nat)] = B "/Contents " ++ (intDec (f.n + 1 + 1 : Nat) ++ B " 0 R>>") := sprintfB_of_render _ _ _ rfl
    rw [hn, e, intDec_ofNat, show B "<</Type /Page\n/Parent 1 0 R\n" = B "<</Type /Page" ++ [10] ++ B "/Parent 1 0 R" ++ [10] from rfl,
      show B "/Resources 2 0 R\n" = B "/Resources 2 0 R" ++ [10] from rfl, show B " 0 R>>\n" = B " 0 R>>" ++ [10] from rfl]
    simp only [List.append_assoc]
  · have e1 : g4.l = f.l := h4.l.trans k1
    have e2 : g4.p = f.p := h4.p.trans k2
    have e3 : g4.k = f.k := h4.k.trans k3
    have e4 : g4.m.protect.encrypted = f.m.protect.encrypted := by
      have := congrArg (fun x : Fpdf => x.m.protect.encrypted) h4.fix
      rw [← k4]; exact this
    have e5 : AnnotsFor f.l f.m.protect.encrypted n annots := by
      have := ha.2.1
      rw [e1, e4] at this
      exact this
    have e6 : LinksFor f.l f hPt n annots := by
      have := ha.2.2
      unfold LinksFor at this ⊢
      rw [e1, e2, e3, e4] at this
      exact this
    have ha1 := ha.1
    rw [e1, e2, e3] at ha1
    exact ⟨ha1, e5, e6, hmid⟩
  · have ho := Out.out (h7.state.trans hs1) (B "endobj")
    exact (h7.trans ho).l.trans k1

/-! ### All pages -/

theorem wfix_page {f g : Fpdf} (h : wfix g = wfix f) : g.p = f.p ∧ g.pages = f.pages ∧ g.k = f.k ∧ g.l.links = f.l.links ∧ g.l.pageLinks = f.l.pageLinks ∧
    g.m.compress = f.m.compress ∧ g.m.protect.encrypted = f.m.protect.encrypted ∧ g.m.protect.encryptionKey = f.m.protect.encryptionKey := by
  refine ⟨?_, ?_, ?_, ?_, ?_, ?_, ?_, ?_⟩
  · have := congrArg (fun x : Fpdf => x.p) h; exact this
  · have := congrArg (fun x : Fpdf => x.pages) h; exact this
  · have := congrArg (fun x : Fpdf => x.k) h; exact this
  · have := congrArg (fun x : Fpdf => x.l.links) h; exact this
  · have := congrArg (fun x : Fpdf => x.l.pageLinks) h; exact this
  · have := congrArg (fun x : Fpdf => x.m.compress) h; exact this
  · have := congrArg (fun x : Fpdf => x.m.protect.encrypted) h; exact this
  · have := congrArg (fun x : Fpdf => x.m.protect.encryptionKey) h; exact this

theorem PageDict.of_wfix {E : Ext} {L : LinkSt} {f g : Fpdf} (h : wfix g = wfix f) {hPt : Rat} {n j : Nat} {b : Bytes} (hb : PageDict E L g hPt n j b) : PageDict E L f hPt n j b := by
  obtain ⟨h1, _, h3, h4, h5, _⟩ := wfix_page h
  obtain ⟨mid, an, gr, e, hl1, hl2⟩ := hb.shape
  rw [h1] at e
  rw [h1, h3, h4, h5] at hl1
  refine ⟨mid, an, gr, e, hl1, ?_⟩
  unfold LinksFor at hl2
  rw [(wfix_page h).2.2.2.2.2.2.1, h1, h3, h4, h5] at hl2
  exact hl2

theorem Holds.of_wfix {f g : Fpdf} (h : wfix g = wfix f) {md5 : Bytes → Bytes} {n : Nat} {d b : Bytes} (hb : Holds md5 g.m.protect n d b) : Holds md5 f.m.protect n d b := by
  obtain ⟨_, _, _, _, _, _, h7, h8⟩ := wfix_page h
  unfold Holds at *
  rw [h7, h8] at hb
  exact hb

/-- The two objects of page `n`, written as objects `j` and `j + 1`. -/
structure PageObjs (E : Ext) (L : LinkSt) (f : Fpdf) (hPt : Rat) (n j : Nat) (o1 o2 : Body) : Prop where
  dict : ∃ b, o1 = .plain b ∧ PageDict E L f hPt n j b
  content : ∃ b', o2 = .stream (contentDict E f.m.compress (f.pages.getD n [])) b' ∧
    Holds E.md5 f.m.protect (j + 1) (contentData E f.m.compress (f.pages.getD n [])) b'

theorem PageObjs.of_wfix {E : Ext} {L : LinkSt} {f g : Fpdf} (h : wfix g = wfix f) {hPt : Rat} {n j : Nat} {o1 o2 : Body} (hb : PageObjs E L g hPt n j o1 o2) : PageObjs E L f hPt n j o1 o2 := by
  obtain ⟨b, e1, h1⟩ := hb.dict
  obtain ⟨b', e2, h2⟩ := hb.content
  have h3 := h2.of_wfix h
  rw [(wfix_page h).2.2.2.2.2.1, (wfix_page h).2.1] at h3 e2
  exact ⟨⟨b, e1, h1.of_wfix h⟩, ⟨b', e2, h3⟩⟩

theorem putPagesLoop_succ (E : Ext) (hPt : Rat) (c n : Nat) (f : Fpdf) (kids : List Nat) :
    Fpdf.putPagesLoop E hPt (c + 1) n f kids =
      Fpdf.putPagesLoop E hPt c (n + 1) ((f.putPageDict E hPt n).putContent E ((f.putPageDict E hPt n).pages.getD n [])) (kids ++ [f.n + 1]) := rfl

theorem putContent_l (E : Ext) (f : Fpdf) (b : Bytes) : (f.putContent E b).l = f.l := by
  have o : ∀ (g : Fpdf) s, (g.out s).l = g.l := by intro g s; unfold Fpdf.out; split <;> rfl
  have p : ∀ (g : Fpdf) s, (g.putstream E.md5 s).l = g.l := by
    intro g s
    unfold Fpdf.putstream Fpdf.outs
    dsimp only
    split <;> simp only [o]
  unfold Fpdf.putContent Fpdf.outs Fpdf.outf
  dsimp only
  split <;> simp only [o, p, (newobj_keeps f).1]

/-- One round of the loop. -/
theorem putPage_w (E : Ext) (hPt : Rat) (n : Nat) (f : Fpdf) (hs : f.state = 1) (hr : f.m.protect.rc4n ≤ f.n) :
    ∃ o1 o2, W f ((f.putPageDict E hPt n).putContent E ((f.putPageDict E hPt n).pages.getD n [])) [o1, o2] ∧
      PageObjs E f.l f hPt n (f.n + 1) o1 o2 ∧ ((f.putPageDict E hPt n).putContent E ((f.putPageDict E hPt n).pages.getD n [])).l = f.l := by
  obtain ⟨b, w1, p1, l1⟩ := putPageDict_w E hPt f hs n
  generalize f.putPageDict E hPt n = g1 at w1 l1 ⊢
  have hs1 := w1.state.trans hs
  obtain ⟨b', w2, p2⟩ := putContent_w E g1 hs1 (w1.rc hr) (g1.pages.getD n [])
  have hn1 : g1.n = f.n + 1 := w1.n
  refine ⟨_, _, w1.trans w2, ⟨⟨b, rfl, p1⟩, ?_⟩, (putContent_l E g1 _).trans l1⟩
  have h3 := p2.of_wfix w1.fix
  have e := wfix_page w1.fix
  rw [e.2.2.2.2.2.1, e.2.1] at h3 ⊢
  rw [hn1] at h3
  exact ⟨b', rfl, h3⟩

theorem putPagesLoop_w (E : Ext) (hPt : Rat) (cnt : Nat) : ∀ (n : Nat) (f : Fpdf) (kids : List Nat), f.state = 1 → f.m.protect.rc4n ≤ f.n →
    ∃ objs, W f (Fpdf.putPagesLoop E hPt cnt n f kids).1 objs ∧ objs.length = 2 * cnt ∧
      (Fpdf.putPagesLoop E hPt cnt n f kids).2 = kids ++ (List.range cnt).map (fun i => f.n + 1 + 2 * i) ∧
      ∀ i, i < cnt → ∃ o1 o2, objs[2 * i]? = some o1 ∧ objs[2 * i + 1]? = some o2 ∧ PageObjs E f.l f hPt (n + i) (f.n + 1 + 2 * i) o1 o2 := by
  induction cnt with
  | zero => intro n f kids _ _; exact ⟨[], W.refl f, rfl, by simp [Fpdf.putPagesLoop], by omega⟩
  | succ c ih =>
    intro n f kids hs hr
    rw [putPagesLoop_succ]
    obtain ⟨o1, o2, w12, p, l12⟩ := putPage_w E hPt n f hs hr
    generalize (f.putPageDict E hPt n).putContent E ((f.putPageDict E hPt n).pages.getD n []) = g at w12 l12 ⊢
    obtain ⟨objs, w3, hl, hk, ho⟩ := ih (n + 1) g (kids ++ [f.n + 1]) (w12.state.trans hs) (w12.rc hr)
    have hn : g.n = f.n + 2 := w12.n
    refine ⟨_, w12.trans w3, ?_, ?_, ?_⟩
    · simp only [List.length_append, List.length_cons, List.length_nil, hl]; omega
    · rw [hk, hn, List.range_succ_eq_map, List.map_cons, List.map_map, List.append_assoc]
      congr 1
      rw [List.singleton_append]
      congr 1
      apply List.map_congr_left
      intro i _
      show f.n + 2 + 1 + 2 * i = f.n + 1 + 2 * (i + 1)
      omega
    · intro i hi
      cases i with
      | zero => exact ⟨o1, o2, rfl, rfl, p⟩
      | succ i =>
        obtain ⟨o3, o4, e1, e2, hp⟩ := ho i (by omega)
        refine ⟨o3, o4, ?_, ?_, ?_⟩
        · rw [show 2 * (i + 1) = 2 * i + 2 by omega]; exact e1
        · rw [show 2 * (i + 1) + 1 = 2 * i + 1 + 2 by omega]; exact e2
        · rw [hn] at hp
          have h4 := hp.of_wfix w12.fix
          rw [l12] at h4
          rw [show n + 1 + i = n + (i + 1) by omega, show f.n + 2 + 1 + 2 * i = f.n + 1 + 2 * (i + 1) by omega] at h4
          exact h4

/-! ### The catalog and the information dictionary -/

/-- An object that begins as given. -/
theorem W.pre {f g h : Fpdf} {pre : Bytes} (hs : f.state = 1) (h1 : Out f.newobj g pre) (h2 : Ps g h) :
    ∃ r, W f (h.outs "endobj") [.plain (pre ++ r)] := by
  have hs1 : f.newobj.state = 1 := (newobj_state f).trans hs
  obtain ⟨r, b1, b2, b3, b4, b5⟩ := h2.o (h1.state.trans hs1)
  have hgs : h.state = 1 := (wfix_state b2).trans (h1.state.trans hs1)
  have ho := Out.out hgs (B "endobj")
  let g0 : Fpdf := { f.newobj with buffer := f.newobj.buffer ++ ((Body.plain (pre ++ r)).bytes ++ B "endobj\n") }
  refine ⟨r, W.obj hs (g := g0) (b := .plain (pre ++ r)) ⟨rfl, rfl, id⟩ trivial ?_ ?_ (ho.n.trans (b3.trans h1.n)) (ho.offsets.trans (b4.trans h1.offsets))
    (fun x => ho.rc (b5 (h1.rc x)))⟩
  · exact (wfix_of_ofix ho.fix).trans (b2.trans (wfix_of_ofix h1.fix))
  · refine ho.buf.trans ?_
    rw [b1, h1.buf, List.append_assoc, List.append_assoc]
    show f.newobj.buffer ++ (pre ++ (r ++ (B "endobj" ++ [10]))) = f.newobj.buffer ++ ((pre ++ r) ++ B "endobj\n")
    rw [List.append_assoc]; rfl

theorem putcatalog_w (f : Fpdf) (hs : f.state = 1) : ∃ r, W f f.putcatalog [.plain (B "<<\n/Type /Catalog\n/Pages 1 0 R\n" ++ r)] := by
  have hs1 : f.newobj.state = 1 := (newobj_state f).trans hs
  have h1 := (((Out.refl f.newobj).o hs1 (B "<<")).o hs1 (B "/Type /Catalog")).o hs1 (B "/Pages 1 0 R")
  have e : [] ++ (B "<<" ++ [10]) ++ (B "/Type /Catalog" ++ [10]) ++ (B "/Pages 1 0 R" ++ [10]) = B "<<\n/Type /Catalog\n/Pages 1 0 R\n" := by decide +kernel
  rw [e] at h1
  unfold Fpdf.putcatalog
  dsimp only
  refine W.pre hs h1 ?_
  refine ((Ps.out ?_ _).outs _).outs _
  refine Ps.opt (Ps.outs ?_ _) (by ps)
  refine Ps.pl ?_ (layerPutCatalog_pl (Pl.refl _))
  refine Ps.opt (putLayout_ps (Pl.ps (putZoom_pl ?_))) (by ps)
  exact Pl.refl _

theorem putinfo_w (E : Ext) (f : Fpdf) (hs : f.state = 1) : ∃ r, W f (f.putinfo E) [.plain (B "<<\n" ++ r ++ B ">>\n")] := by
  have hs1 : f.newobj.state = 1 := (newobj_state f).trans hs
  have h1 := (Out.refl f.newobj).o hs1 (B "<<")
  have key : ∀ g h : Fpdf, Out f.newobj g ([] ++ (B "<<" ++ [10])) → Pl g h → ∃ r, W f ((h.outs ">>").outs "endobj") [.plain (B "<<\n" ++ r ++ B ">>\n")] := by
    intro g h hg hh
    obtain ⟨r, hr⟩ := hh.o (hg.state.trans hs1)
    have h3 := (hg.trans hr).o hs1 (B ">>")
    refine ⟨r, ?_⟩
    have := W.plainEq hs h3
    exact this
  unfold Fpdf.putinfo
  dsimp only
  have h1' : Out f.newobj (f.newobj.outs "<<") ([] ++ (B "<<" ++ [10])) := h1
  generalize f.newobj.outs "<<" = g0 at h1' ⊢
  refine key g0 _ h1' ?_
  repeat (with_reducible first | exact Pl.refl _ | apply Pl.outs | apply putInfoEntry_pl | apply Pl.opt)

end Verif.Proof
