import Verif.Proof.Pages
import Verif.Proof.PageObjs
import Verif.Proof.Mid
import Verif.Proof.Attach
/-
The finished file.
-/
namespace Verif.Proof
open Verif Verif.Model Verif.Spec

theorem readNat_sp (n : Nat) (c : UInt8) (hc : isDigit c = false) (r : Bytes) : readNat (natDec n ++ c :: r) = some (n, c :: r) := readNat_natDec _ _ _ hc

theorem readTrailer_core (n : Nat) (Y : Bytes) : readTrailer (B "trailer\n<<\n/Size " ++ (natDec (n + 1) ++ (B "\n/Root " ++ (natDec n ++ (B " 0 R\n/Info " ++ (natDec (n - 1) ++ (B " 0 R\n" ++ Y))))))) =
    some (n + 1, n, n - 1) := by
  unfold readTrailer
  rw [strip_append]
  simp only [Option.bind_eq_bind, Option.bind_some]
  rw [show B "\n/Root " ++ (natDec n ++ (B " 0 R\n/Info " ++ (natDec (n - 1) ++ (B " 0 R\n" ++ Y))))
    = (10 : UInt8) :: (B "/Root " ++ (natDec n ++ (B " 0 R\n/Info " ++ (natDec (n - 1) ++ (B " 0 R\n" ++ Y))))) from rfl, readNat_sp _ _ rfl]
  simp only [Option.bind_some]
  rw [show (10 : UInt8) :: (B "/Root " ++ (natDec n ++ (B " 0 R\n/Info " ++ (natDec (n - 1) ++ (B " 0 R\n" ++ Y)))))
    = B "\n/Root " ++ (natDec n ++ (B " 0 R\n/Info " ++ (natDec (n - 1) ++ (B " 0 R\n" ++ Y)))) from rfl, strip_append]
  simp only [Option.bind_some]
  rw [show (B " 0 R\n/Info " ++ (natDec (n - 1) ++ (B " 0 R\n" ++ Y))) = (32 : UInt8) :: (B "0 R\n/Info " ++ (natDec (n - 1) ++ (B " 0 R\n" ++ Y))) from rfl,
    readNat_sp _ _ rfl]
  simp only [Option.bind_some]
  rw [show (32 : UInt8) :: (B "0 R\n/Info " ++ (natDec (n - 1) ++ (B " 0 R\n" ++ Y))) = (B " 0 R\n/Info " ++ (natDec (n - 1) ++ (B " 0 R\n" ++ Y))) from rfl, strip_append]
  simp only [Option.bind_some]
  rw [show B " 0 R\n" ++ Y = (32 : UInt8) :: (B "0 R\n" ++ Y) from rfl, readNat_sp _ _ rfl]
  simp only [Option.bind_some]
  rw [show (32 : UInt8) :: (B "0 R\n" ++ Y) = B " 0 R\n" ++ Y from rfl, strip_append]
  rfl

theorem readTrailer_text (n : Nat) (enc : Option Nat) (start : Nat) : readTrailer (trailerText n enc start) = some (n + 1, n, n - 1) := by
  have h := readTrailer_core n ((match enc with | some e => B "/Encrypt " ++ natDec e ++ B " 0 R\n/ID [()()]\n" | none => []) ++ (B ">>\nstartxref\n" ++ (natDec start ++ B "\n%%EOF\n")))
  rw [← h]
  unfold trailerText
  cases enc <;> simp only [List.append_assoc]

theorem allItems_fst (A P M T : List Body) (root res : Body) :
    ((allItems A P M T root res).map Prod.fst).Perm (List.range' 1 (2 + A.length + P.length + M.length + T.length)) := by
  unfold allItems
  simp only [List.map_append, num_fst, List.map_cons, List.map_nil]
  have e : List.range' 1 (2 + A.length + P.length + M.length + T.length) = [1] ++ ([2] ++ (List.range' 3 A.length ++ (List.range' (3 + A.length) P.length ++
      (List.range' (3 + A.length + P.length) M.length ++ List.range' (3 + A.length + P.length + M.length) T.length)))) := by
    rw [show 2 + A.length + P.length + M.length + T.length = 1 + (1 + (A.length + (P.length + (M.length + T.length)))) by omega]
    rw [← List.range'_append_1, ← List.range'_append_1, ← List.range'_append_1, ← List.range'_append_1, ← List.range'_append_1]
    rfl
  rw [e]
  rw [List.perm_iff_count]
  intro a
  simp only [List.count_append]
  omega

theorem objsText_prefix {items : List (Nat × Body)} {a c : List (Nat × Body)} {x : Nat × Body} (h : items = a ++ x :: c) (pre tail : Bytes) :
    objText x.1 x.2 <+: (pre ++ objsText items ++ tail).drop (pre.length + (objsText a).length) := by
  subst h
  rw [objsText_append, objsText_cons, show pre ++ (objsText a ++ (objText x.1 x.2 ++ objsText c)) ++ tail = (pre ++ objsText a) ++ (objText x.1 x.2 ++ (objsText c ++ tail)) by simp,
    show pre.length + (objsText a).length = (pre ++ objsText a).length by simp, List.drop_left]
  exact ⟨_, rfl⟩

theorem mem_num {k : Nat} {o : List Body} {x : Nat × Body} (h : x ∈ num k o) : x.2 ∈ o := by
  induction o generalizing k with
  | nil => simp [num] at h
  | cons b o ih =>
    simp only [num, List.mem_cons] at h
    rcases h with rfl | h
    · exact List.mem_cons_self
    · exact List.mem_cons_of_mem _ (ih h)

theorem num_mem {k : Nat} {o : List Body} {i : Nat} {b : Body} (h : o[i]? = some b) : (k + i, b) ∈ num k o := by
  have := num_getElem? k o i
  rw [h] at this
  exact List.mem_of_getElem? this

/-- Reading a file composed of its parts. -/
theorem isPdf_of {items : List (Nat × Body)} {junk : Bytes} {v N : Nat} {offs : List Nat} {enc : Option Nat} {pdf : Bytes}
    (hbuf : pdf = junk ++ (B "%PDF-1." ++ natDec v ++ [10]) ++ objsText items ++ (xrefText offs ++ trailerText N enc (junk ++ (B "%PDF-1." ++ natDec v ++ [10]) ++ objsText items).length))
    (hlen : offs.length = N) (hfst : (items.map Prod.fst).Perm (List.range' 1 N))
    (hoff : ∀ a j b c, items = a ++ (j, b) :: c → j ∉ c.map Prod.fst → j ≠ 0 → offs.getD (j - 1) 0 = (junk ++ (B "%PDF-1." ++ natDec v ++ [10])).length + (objsText a).length)
    (hok : ∀ x ∈ items, x.2.Ok) (hroot : ∃ r, (N, Body.plain (B "<<\n/Type /Catalog\n/Pages 1 0 R\n" ++ r)) ∈ items)
    (hinfo : ∃ r, (N - 1, Body.plain (B "<<\n" ++ r ++ B ">>\n")) ∈ items) (hL : pdf.length < 10 ^ 10) : IsPdf pdf junk v items N (N - 1) := by
  have hnd : (items.map Prod.fst).Nodup := hfst.nodup_iff.mpr (List.nodup_range' ..)
  have hoff' : ∀ x ∈ items, ∃ a c, items = a ++ x :: c ∧ offs.getD (x.1 - 1) 0 = (junk ++ (B "%PDF-1." ++ natDec v ++ [10])).length + (objsText a).length := by
    intro x hx
    obtain ⟨a, c, hac⟩ := List.append_of_mem hx
    refine ⟨a, c, hac, hoff a x.1 x.2 c hac ?_ ?_⟩
    · intro hmem
      rw [hac, List.map_append, List.map_cons] at hnd
      exact (List.nodup_cons.mp (List.nodup_append.mp hnd).2.1).1 hmem
    · have : x.1 ∈ List.range' 1 N := hfst.subset (List.mem_map_of_mem hx)
      rw [List.mem_range'_1] at this; omega
  generalize hpre : junk ++ (B "%PDF-1." ++ natDec v ++ [10]) = pre at hbuf hoff'
  have hsmall : ∀ o ∈ offs, o < 10 ^ 10 := by
    intro o ho
    obtain ⟨j, hj, hjo⟩ := List.getElem_of_mem ho
    have hm : j + 1 ∈ items.map Prod.fst := hfst.symm.subset (by rw [List.mem_range'_1]; omega)
    obtain ⟨x, hx, hx1⟩ := List.mem_map.mp hm
    obtain ⟨a, c, hac, hoa⟩ := hoff' x hx
    rw [hx1, show j + 1 - 1 = j by omega, List.getD_eq_getElem?_getD, List.getElem?_eq_getElem hj, hjo] at hoa
    simp only [Option.getD_some] at hoa
    rw [hoa]
    refine Nat.lt_of_le_of_lt ?_ hL
    rw [hbuf, hac, objsText_append]
    simp only [List.length_append]; omega
  obtain ⟨r1, r2⟩ := read_file (pre ++ objsText items) offs hsmall enc N
  rw [← hbuf] at r1 r2
  refine ⟨⟨_, offs, _, r1, ?_, r2, ?_, ?_, ?_⟩, hok, hroot, hinfo⟩
  · rw [hbuf, List.take_left, ← hpre, natDec_decimal]
  · rw [readTrailer_text, hlen]
  · rw [hlen]; exact hfst
  · intro x hx
    obtain ⟨a, c, hac, hoa⟩ := hoff' x hx
    rw [hoa, hbuf]
    exact objsText_prefix hac _ _

/-- The objects `T` after the resource dictionary, stage by stage. -/
structure Tail (E : Ext) (f : Fpdf) (T Js Enc Bk Xmp : List Body) (i c : Bytes) : Prop where
  eq : T = Js ++ (Enc ++ (Bk ++ Xmp)) ++ [.plain (B "<<\n" ++ i ++ B ">>\n"), .plain (B "<<\n/Type /Catalog\n/Pages 1 0 R\n" ++ c)]
  js : W (sDict E f) (sJs E f) Js
  enc : W (sJs E f) (sEnc E f) Enc
  bk : W (sEnc E f) (sBk E f) Bk
  bkObjs : BkObjs E (sEnc E f) Bk
  xmp : W (sBk E f) (sXmp E f) Xmp
  info : W (sXmp E f) (sInf E f) [.plain (B "<<\n" ++ i ++ B ">>\n")]
  cat : W (sInf E f) (sEnd E f) [.plain (B "<<\n/Type /Catalog\n/Pages 1 0 R\n" ++ c)]
  jsNone : (sDict E f).m.javascript = none → Js = []
  jsSome : ∀ js, (sDict E f).m.javascript = some js → JsObjs E (sDict E f) js Js ∧ (sInf E f).m.nJs = (sDict E f).n + 1
  encNone : (sJs E f).m.protect.encrypted = false → Enc = []
  encSome : (sJs E f).m.protect.encrypted = true → Enc = [.plain (encryptText (sJs E f).m.protect)] ∧ (sEnd E f).m.protect.objNum = (sJs E f).n + 1
  rootNum : (sEnc E f).l.outlines ≠ [] → (sInf E f).m.outlineRoot = (sBk E f).n
  xmpNone : (sBk E f).m.xmp = [] → Xmp = []
  xmpSome : (sBk E f).m.xmp ≠ [] → ∃ b', Xmp = [.stream (B "<< /Type /Metadata /Subtype /XML /Length " ++ natDec (sBk E f).m.xmp.length ++ B " >>\n") b'] ∧ Holds E.md5 (sBk E f).m.protect ((sBk E f).n + 1) (sBk E f).m.xmp b'
  infoText : InfoText E (sXmp E f) i
  catText : c = catalogText (sInf E f)

theorem Tail.w {E : Ext} {f : Fpdf} {T Js Enc Bk Xmp : List Body} {i c : Bytes} (h : Tail E f T Js Enc Bk Xmp i c) : W (sDict E f) (sEnd E f) T := by
  rw [h.eq]
  exact (h.js.trans (h.enc.trans (h.bk.trans h.xmp))).trans (h.info.trans h.cat)

/-- The attachments embedded. -/
structure Attached (E : Ext) (f : Fpdf) (A : List Body) : Prop where
  split : ∃ A1 A2, A = A1 ++ A2 ∧ W f.putheader (f.putheader.putAttachments E) A1 ∧ DocAtt E f.putheader f.l.attachments (sAtt E f).l.attachments A1 ∧
    PtrAtt E (f.putheader.putAttachments E) (sAtt E f) (f.l.pageAttachments.flatten.map (·.ptr)) A2 ∧ (f.putheader.putAttachments E).l.heap = f.l.heap

/-- What `enddoc` writes. -/
structure Written (E : Ext) (f : Fpdf) (v : Nat) (A P M T : List Body) (d : Bytes) (items : List (Nat × Body)) (pdf : Bytes) : Prop where
  eq : items = allItems A P M T (rootBody f.page ((List.range f.page).map fun i => 3 + A.length + 2 * i) (defDim f).1 (defDim f).2) (.plain (B "<<\n" ++ d ++ B ">>\n"))
  plen : P.length = 2 * f.page
  pages : ∀ i, i < f.page → ∃ o1 o2, P[2 * i]? = some o1 ∧ P[2 * i + 1]? = some o2 ∧ PageObjs E (sAli E f).l (sAli E f) (defDim f).2 (1 + i) (3 + A.length + 2 * i) o1 o2
  att : W f.putheader (sAtt E f) A
  mid : W (sRoot E f) (sRes E f) M
  res : Placed E (sRoot E f) (sRes E f) M
  loop : W (sAli E f) (sLoop E f).1 P
  dict : ∃ h1, Out ((sRes E f).setOffset 2) h1 (B "2 0 obj\n<<\n") ∧ Out h1 (h1.putresourcedict E) d
  tail : ∃ Js Enc Bk Xmp i c, Tail E f T Js Enc Bk Xmp i c
  ver : v = f.putheader.m.pdfVersion
  attach : Attached E f A
  trailer : ∃ pre pos, pdf = pre ++ trailerText (2 + A.length + P.length + M.length + T.length) (if (sEnd E f).m.protect.encrypted then some (sEnd E f).m.protect.objNum else none) pos
  pdf : pdf.length < 10 ^ 10 → IsPdf pdf f.buffer v items (2 + A.length + P.length + M.length + T.length) (2 + A.length + P.length + M.length + T.length - 1)

theorem putjavascript_kp (E : Ext) (f : Fpdf) : Kp (fun r => { r with nJs := 0 }) f (f.putjavascript E) := by
  unfold Fpdf.putjavascript
  split
  · exact Kp.refl f
  · dsimp only
    have h1 : Kp (fun r => { r with nJs := 0 }) f { f.newobj with m.nJs := f.newobj.n } := ((Kp.refl f).newobj).trans (Kp.upd rfl rfl)
    generalize ({ f.newobj with m.nJs := f.newobj.n } : Fpdf) = g at h1 ⊢
    refine h1.trans ?_
    kps
theorem putEncrypt_kp (f : Fpdf) : Kp (fun r => { r with objNum := 0 }) f f.putEncrypt := by
  unfold Fpdf.putEncrypt
  split
  · dsimp only
    have h1 : Kp (fun r => { r with objNum := 0 }) f { f.newobj with m.protect.objNum := f.newobj.n } := ((Kp.refl f).newobj).trans (Kp.upd rfl rfl)
    generalize ({ f.newobj with m.protect.objNum := f.newobj.n } : Fpdf) = g at h1 ⊢
    refine h1.trans ?_
    kps
  · exact Kp.refl f
theorem putbookmarks_kp (E : Ext) (f : Fpdf) : Kp (fun r => { r with outlineRoot := 0 }) f (f.putbookmarks E) ∧ (f.l.outlines ≠ [] → f.state = 1 → (f.putbookmarks E).m.outlineRoot = (f.putbookmarks E).n) := by
  unfold Fpdf.putbookmarks
  by_cases hl : f.l.outlines.length > 0
  · rw [if_pos hl]
    dsimp only
    have h1 : Kp (fun r => { r with outlineRoot := 0 }) f ((f.l.outlines.zip (outlineLinks (f.l.outlines.map (·.level))).links).foldl (Fpdf.putOutline E (f.n + 1)) f) :=
      (Kp.foldl _ (putOutline_keep E _) _ (Kp.refl f)).mono fun a b h => congrArg (fun r : Res => { r with outlineRoot := 0 }) h
    generalize (f.l.outlines.zip (outlineLinks (f.l.outlines.map (·.level))).links).foldl (Fpdf.putOutline E (f.n + 1)) f = g at h1 ⊢
    have h2 : Kp (fun r => { r with outlineRoot := 0 }) f { g.newobj with m.outlineRoot := g.newobj.n } := (h1.newobj).trans (Kp.upd rfl rfl)
    have h3 : ({ g.newobj with m.outlineRoot := g.newobj.n } : Fpdf).m.outlineRoot = ({ g.newobj with m.outlineRoot := g.newobj.n } : Fpdf).n := rfl
    generalize ({ g.newobj with m.outlineRoot := g.newobj.n } : Fpdf) = g2 at h2 h3 ⊢
    refine ⟨h2.trans (by kps), fun _ _ => ?_⟩
    have q : ∀ (x : Fpdf) s, x.m.outlineRoot = x.n → (x.out s).m.outlineRoot = (x.out s).n := by
      intro x s h; unfold Fpdf.out; split <;> exact h
    exact q _ _ (q _ _ (q _ _ h3))
  · rw [if_neg hl]
    exact ⟨Kp.refl f, fun h => absurd (List.length_pos_iff.mpr h) hl⟩
theorem putxmp_kp (E : Ext) (f : Fpdf) : Kp id f (f.putxmp E) := by
  unfold Fpdf.putxmp
  dsimp only
  kps
theorem putinfo_kp (E : Ext) (f : Fpdf) : Kp id f (f.putinfo E) := by
  unfold Fpdf.putinfo
  dsimp only
  have key : ∀ {g : Fpdf} k v, Kp id f g → Kp id f (g.putInfoEntry E k v) := fun k v h => h.pl (putInfoEntry_pl E (Pl.refl _) k v)
  repeat (with_reducible first | apply key | exact Kp.refl _ | apply Kp.outs | apply Kp.newobj | apply Kp.ite)
theorem putcatalog_kp (f : Fpdf) (hs : f.state = 1) : f.putcatalog.m.protect.objNum = f.m.protect.objNum := by
  have e : ∀ (x : Fpdf) s, (x.out s).m.protect.objNum = x.m.protect.objNum := by intro x s; unfold Fpdf.out; split <;> rfl
  have e1 : ∀ (x : Fpdf) s, (x.outs s).m.protect.objNum = x.m.protect.objNum := fun x s => e x _
  have e2 : ∀ (x : Fpdf) s a, (x.outf s a).m.protect.objNum = x.m.protect.objNum := fun x s a => e x _
  have e3 : ∀ x : Fpdf, x.putZoom.m.protect.objNum = x.m.protect.objNum := by
    intro x; unfold Fpdf.putZoom; repeat' split
    all_goals simp only [e1]
  have e4 : ∀ x : Fpdf, x.putLayout.m.protect.objNum = x.m.protect.objNum := by
    intro x; unfold Fpdf.putLayout; dsimp only; repeat' split
    all_goals simp only [e1, e]
  have e5 : ∀ x : Fpdf, x.layerPutCatalog.m.protect.objNum = x.m.protect.objNum := by
    intro x; unfold Fpdf.layerPutCatalog; dsimp only; repeat' split
    all_goals simp only [e1, e2]
  unfold Fpdf.putcatalog
  dsimp only
  rw [e1, e1, e1, e]
  rw [show ∀ (c : Prop) [Decidable c] (a b : Fpdf), (if c then a else b).m.protect.objNum = if c then a.m.protect.objNum else b.m.protect.objNum from fun c _ a b => by split <;> rfl]
  simp only [e1, e2, e5]
  rw [ite_self]
  rw [show ∀ (c : Prop) [Decidable c] (a b : Fpdf), (if c then a else b).m.protect.objNum = if c then a.m.protect.objNum else b.m.protect.objNum from fun c _ a b => by split <;> rfl]
  simp only [e1, e2, e3, e4]
  rw [ite_self, (newobj_keeps f).2.2.2]

theorem res_root {f g : Fpdf} (h : (fun r : Res => { r with outlineRoot := 0 }) (resOf g) = (fun r : Res => { r with outlineRoot := 0 }) (resOf f)) :
    g.m.nJs = f.m.nJs ∧ g.m.protect.objNum = f.m.protect.objNum := by
  refine ⟨?_, ?_⟩
  · have := congrArg Res.nJs h; exact this
  · have := congrArg Res.objNum h; exact this
theorem res_obj {f g : Fpdf} (h : (fun r : Res => { r with objNum := 0 }) (resOf g) = (fun r : Res => { r with objNum := 0 }) (resOf f)) : g.m.nJs = f.m.nJs := by
  have := congrArg Res.nJs h; exact this
theorem res_id {f g : Fpdf} (h : resOf g = resOf f) : g.m.nJs = f.m.nJs ∧ g.m.protect.objNum = f.m.protect.objNum ∧ g.m.outlineRoot = f.m.outlineRoot := by
  refine ⟨?_, ?_, ?_⟩
  · have := congrArg Res.nJs h; exact this
  · have := congrArg Res.objNum h; exact this
  · have := congrArg Res.outlineRoot h; exact this
theorem W.setAtt {f g : Fpdf} {o : List Body} (h : W f g o) (r : List Attachment) : W f { g with l.attachments := r } o :=
  ⟨h.buf, h.n, h.fix, h.len, h.old, h.new, h.ok, h.rc⟩

theorem tail_chain (E : Ext) (a b c d e y z : Fpdf) (hb0 : b = a.putjavascript E) (hc0 : c = b.putEncrypt) (hd0 : d = c.putbookmarks E) (he0 : e = d.putxmp E) (hy0 : y = e.putinfo E)
    (hz0 : z = y.putcatalog) (hs : a.state = 1) (hr : a.m.protect.rc4n ≤ a.n) :
    ∃ Js Enc Bk Xmp i, W a b Js ∧ W b c Enc ∧ W c d Bk ∧ BkObjs E c Bk ∧ W d e Xmp ∧ W e y [.plain (B "<<\n" ++ i ++ B ">>\n")] ∧
      W y z [.plain (B "<<\n/Type /Catalog\n/Pages 1 0 R\n" ++ catalogText y)] ∧ (a.m.javascript = none → Js = []) ∧
      (∀ js, a.m.javascript = some js → JsObjs E a js Js ∧ y.m.nJs = a.n + 1) ∧ (b.m.protect.encrypted = false → Enc = []) ∧
      (b.m.protect.encrypted = true → Enc = [.plain (encryptText b.m.protect)] ∧ z.m.protect.objNum = b.n + 1) ∧ (c.l.outlines ≠ [] → y.m.outlineRoot = d.n) ∧
      (d.m.xmp = [] → Xmp = []) ∧
      (d.m.xmp ≠ [] → ∃ b', Xmp = [.stream (B "<< /Type /Metadata /Subtype /XML /Length " ++ natDec d.m.xmp.length ++ B " >>\n") b'] ∧ Holds E.md5 d.m.protect (d.n + 1) d.m.xmp b') ∧
      InfoText E e i := by
  obtain ⟨m1, h1, j1, j2⟩ := putjavascript_w E a hs hr
  rw [← hb0] at h1 j2
  have s1 : b.state = 1 := h1.state.trans hs
  obtain ⟨m2, h2, n1, n2⟩ := putEncrypt_w b s1
  rw [← hc0] at h2 n2
  have s2 : c.state = 1 := h2.state.trans s1
  have r2 := h2.rc (h1.rc hr)
  obtain ⟨m3, h3, hb⟩ := putbookmarks_w E c s2 r2
  rw [← hd0] at h3
  have s3 : d.state = 1 := h3.state.trans s2
  have r3 := h3.rc r2
  obtain ⟨m4, h4, x1, x2⟩ := putxmp_w E d s3 r3
  rw [← he0] at h4
  have s4 : e.state = 1 := h4.state.trans s3
  obtain ⟨i, wi, hi⟩ := putinfo_text E e s4 (h4.rc r3)
  rw [← hy0] at wi
  have s5 : y.state = 1 := wi.state.trans s4
  have wc := putcatalog_text y s5
  rw [← hz0] at wc
  have k2 := (putEncrypt_kp b s1).2
  rw [← hc0] at k2
  have k3 := (putbookmarks_kp E c).1 s2
  have k3r := (putbookmarks_kp E c).2
  rw [← hd0] at k3 k3r
  have k4 := (putxmp_kp E d s3).2
  rw [← he0] at k4
  have k5 := (putinfo_kp E e s4).2
  rw [← hy0] at k5
  have kc := putcatalog_kp y s5
  rw [← hz0] at kc
  have q3 : resOf y = resOf d := k5.trans k4
  obtain ⟨q3j, q3o⟩ := res_root k3.2
  have q2j := res_obj k2
  obtain ⟨qj, qo, qr⟩ := res_id q3
  exact ⟨m1, m2, m3, m4, i, h1, h2, h3, hb, h4, wi, wc, j1, fun js h => ⟨(j2 js h).1, (((qj.trans q3j).trans q2j).trans (j2 js h).2)⟩, n1,
    fun h => ⟨(n2 h).1, ((kc.trans qo).trans q3o).trans (n2 h).2⟩, fun h => qr.trans (k3r h s2), x1, x2, hi⟩

theorem sEnd_w (E : Ext) (f : Fpdf) (hs : (sDict E f).state = 1) (hr : (sDict E f).m.protect.rc4n ≤ (sDict E f).n) :
    ∃ T Js Enc Bk Xmp i c, Tail E f T Js Enc Bk Xmp i c := by
  obtain ⟨Js, Enc, Bk, Xmp, i, h1, h2, h3, h4, h5, h6, h7, h8, h9, h10, h11, h12, h13, h14, h15⟩ :=
    tail_chain E (sDict E f) (sJs E f) (sEnc E f) (sBk E f) (sXmp E f) (sInf E f) (sEnd E f) rfl rfl rfl rfl rfl rfl hs hr
  exact ⟨_, Js, Enc, Bk, Xmp, i, _, rfl, h1, h2, h3, h4, h5, h6, h7, h8, h9, h10, h11, h12, h13, h14, h15, rfl⟩

theorem sAtt_w (E : Ext) (f : Fpdf) (hs : f.state = 1) (hr : f.m.protect.rc4n ≤ f.n) : ∃ A, W f.putheader (sAtt E f) A ∧ Attached E f A := by
  obtain ⟨v, hv⟩ := putheader_spec f hs
  have k1 : f.putheader.state = 1 := by rw [hv]; exact hs
  have k2 : f.putheader.l = f.l := by rw [hv]
  have k3 : f.putheader.m.protect.rc4n ≤ f.putheader.n := by rw [hv]; exact hr
  obtain ⟨A1, res, w1, e1, l1, d1⟩ := putAttachmentsLoop_w E f.putheader.l.attachments f.putheader [] k1 k3
  have ep : f.putheader.putAttachments E = { (f.putheader.putAttachmentsLoop E [] f.putheader.l.attachments).1 with l.attachments := res } := by
    unfold Fpdf.putAttachments
    dsimp only
    rw [e1]; rfl
  have l1 := l1.trans k2
  generalize (f.putheader.putAttachmentsLoop E [] f.putheader.l.attachments).1 = g1 at w1 l1 ep
  have w1' : W f.putheader (f.putheader.putAttachments E) A1 := by rw [ep]; exact w1.setAtt res
  have hh : (f.putheader.putAttachments E).l.heap = f.l.heap := by rw [ep]; show g1.l.heap = _; rw [l1]
  have ha : (f.putheader.putAttachments E).l.attachments = res := by rw [ep]
  have hpa : (f.putheader.putAttachments E).l.pageAttachments = f.l.pageAttachments := by rw [ep]; show g1.l.pageAttachments = _; rw [l1]
  obtain ⟨A2, w2, d2⟩ := embedPtrs_w E (f.l.pageAttachments.flatten.map (·.ptr)) (f.putheader.putAttachments E) (w1'.state.trans k1) (w1'.rc k3)
  have es : (f.l.pageAttachments.flatten.map (·.ptr)).foldl (fun f p => f.embedPtr E p) (f.putheader.putAttachments E) = sAtt E f := by
    unfold sAtt Fpdf.putAnnotationsAttachments
    rw [hpa, List.foldl_map]
  rw [es] at w2 d2
  refine ⟨A1 ++ A2, w1'.trans w2, ⟨A1, A2, rfl, w1', ?_, d2, hh⟩⟩
  rw [d2.attach, ha, ← k2]
  exact d1

theorem putheader_keeps (f : Fpdf) (hs : f.state = 1) : f.putheader.state = 1 ∧ f.putheader.page = f.page ∧ f.putheader.p = f.p ∧ f.putheader.k = f.k ∧ f.putheader.n = f.n ∧
    f.putheader.m.protect = f.m.protect ∧ f.putheader.err = f.err := by
  obtain ⟨v, hv⟩ := putheader_spec f hs
  rw [hv]
  exact ⟨hs, rfl, rfl, rfl, rfl, rfl, rfl⟩

theorem defDim_congr {f g : Fpdf} (hp : g.p = f.p) (hk : g.k = f.k) : defDim g = defDim f := by
  unfold defDim; rw [hp, hk]

theorem sAli_keeps (E : Ext) (f : Fpdf) : (sAli E f).state = (sAtt E f).state ∧ (sAli E f).page = (sAtt E f).page ∧ (sAli E f).p = (sAtt E f).p ∧ (sAli E f).k = (sAtt E f).k ∧
    (sAli E f).n = (sAtt E f).n ∧ (sAli E f).m.protect = (sAtt E f).m.protect := by
  obtain ⟨ps, b, am, hal, _⟩ := aliased_spec E (sAtt E f)
  unfold sAli
  rw [hal]
  exact ⟨rfl, rfl, rfl, rfl, rfl, rfl⟩

theorem wfix_pagenum {f g : Fpdf} (h : wfix g = wfix f) : g.page = f.page := by
  have := congrArg (fun x : Fpdf => x.page) h; exact this

theorem root_state (f : Fpdf) (hs : f.state = 1) (nb : Nat) (kids : List Nat) (a b : Rat) : (f.putPagesRoot nb kids a b).state = 1 :=
  (putPagesRoot_out f hs nb kids a b).state.trans hs

theorem sRoot_state (E : Ext) (f : Fpdf) (hs : (sLoop E f).1.state = 1) : (sRoot E f).state = 1 := by
  unfold sRoot
  exact root_state _ hs _ _ _ _

theorem resObj_state (E : Ext) (f : Fpdf) (hs : f.state = 1) : (f.putResourceObj E).state = 1 := by
  obtain ⟨_, _, h, _⟩ := putResourceObj_out E f hs
  exact h.state.trans hs

theorem sDict_state (E : Ext) (f : Fpdf) (hs : (sRes E f).state = 1) : (sDict E f).state = 1 := by
  unfold sDict
  exact resObj_state E _ hs

theorem rootObj_rc (f : Fpdf) (hs : f.state = 1) (nb : Nat) (kids : List Nat) (a b : Rat) (hr : f.m.protect.rc4n ≤ f.n) :
    (f.putPagesRoot nb kids a b).m.protect.rc4n ≤ (f.putPagesRoot nb kids a b).n := (putPagesRoot_out f hs nb kids a b).rc hr

theorem sRoot_rc (E : Ext) (f : Fpdf) (hs : (sLoop E f).1.state = 1) (hr : (sLoop E f).1.m.protect.rc4n ≤ (sLoop E f).1.n) :
    (sRoot E f).m.protect.rc4n ≤ (sRoot E f).n := by
  unfold sRoot
  exact rootObj_rc _ hs _ _ _ _ hr

theorem resObj_rc (E : Ext) (f : Fpdf) (hs : f.state = 1) (hr : f.m.protect.rc4n ≤ f.n) : (f.putResourceObj E).m.protect.rc4n ≤ (f.putResourceObj E).n := by
  obtain ⟨_, _, h, _⟩ := putResourceObj_out E f hs
  exact h.rc hr

theorem sDict_rc (E : Ext) (f : Fpdf) (hs : (sRes E f).state = 1) (hr : (sRes E f).m.protect.rc4n ≤ (sRes E f).n) : (sDict E f).m.protect.rc4n ≤ (sDict E f).n := by
  unfold sDict
  exact resObj_rc E _ hs hr

theorem sLoop_w (E : Ext) (f : Fpdf) (hs : (sAli E f).state = 1) (hr : (sAli E f).m.protect.rc4n ≤ (sAli E f).n) :
    ∃ objs, W (sAli E f) (sLoop E f).1 objs ∧ objs.length = 2 * (sAtt E f).page ∧
      (sLoop E f).2 = (List.range (sAtt E f).page).map (fun i => (sAli E f).n + 1 + 2 * i) ∧
      ∀ i, i < (sAtt E f).page → ∃ o1 o2, objs[2 * i]? = some o1 ∧ objs[2 * i + 1]? = some o2 ∧
        PageObjs E (sAli E f).l (sAli E f) (defDim (sAli E f)).2 (1 + i) ((sAli E f).n + 1 + 2 * i) o1 o2 := by
  unfold sLoop
  have := putPagesLoop_w E (defDim (sAli E f)).2 (sAtt E f).page 1 (sAli E f) [] hs hr
  simp only [List.nil_append] at this
  exact this

theorem enddoc_written (E : Ext) (f : Fpdf) (hs : f.state = 1) (hn : f.n = 2) (ho : f.offsets = []) (hr : f.m.protect.rc4n ≤ f.n) (hp : f.page ≠ 0)
    (he : f.err = none) (hg : (f.enddoc E).err = none) :
    ∃ v A P M T d items, Written E f v A P M T d items (f.enddoc E).buffer := by
  obtain ⟨e0, e1, e2, e3, e4, e5, e6⟩ := enddoc_stages E f he hg
  obtain ⟨k1, k2, k3, k4, k5, k6, k7⟩ := putheader_keeps f hs
  obtain ⟨A, hA, hAtt⟩ := sAtt_w E f hs hr
  have sA := hA.state.trans k1
  obtain ⟨l1, l2, l3, l4, l5, l6⟩ := sAli_keeps E f
  have pA := wfix_page hA.fix
  have hpg : (sAtt E f).page = f.page := (wfix_pagenum hA.fix).trans k2
  have hd : defDim (sAli E f) = defDim f := defDim_congr (l3.trans (pA.1.trans k3)) (l4.trans (pA.2.2.1.trans k4))
  have nA : (sAli E f).n = 2 + A.length := by rw [l5, hA.n, k5, hn]
  have rA : (sAli E f).m.protect.rc4n ≤ (sAli E f).n := by rw [l6, l5]; exact hA.rc (by rw [k6, k5]; exact hr)
  obtain ⟨P, hP, lP, kids, pgs⟩ := sLoop_w E f (l1.trans sA) rA
  have sP := hP.state.trans (l1.trans sA)
  have sR := sRoot_state E f sP
  obtain ⟨M, hM, hmid⟩ := mid_w E f sR (sRoot_rc E f sP (hP.rc rA)) e3
  have sD := sDict_state E f (hM.state.trans sR)
  obtain ⟨T, Js, Enc, Bk, Xmp, i, c, htail⟩ := sEnd_w E f sD (sDict_rc E f (hM.state.trans sR) (hM.rc (sRoot_rc E f sP (hP.rc rA))))
  have hT := htail.w
  rw [hpg] at lP
  have hP0 : P ≠ [] := by intro h; rw [h] at lP; simp at lP; omega
  obtain ⟨v, d, enc, offs, h1, hbuf, hlen, hoff, hd1, hd2, hver, henc⟩ := layout E f hs hn ho hA hP hP0 hM hT
  have hkids : (sLoop E f).2 = (List.range f.page).map fun i => 3 + A.length + 2 * i := by
    refine kids.trans ?_
    rw [hpg]
    apply List.map_congr_left
    intro i _
    rw [nA]; omega
  rw [hpg, hkids, hd] at hbuf hoff
  have hTT := htail.eq.symm
  generalize Js ++ (Enc ++ (Bk ++ Xmp)) = T0 at hTT
  refine ⟨v, A, P, M, T, d, _, ⟨rfl, lP, ?_, hA, hM, hmid, hP, ⟨h1, hd1, hd2⟩, ⟨Js, Enc, Bk, Xmp, i, c, htail⟩, hver, hAtt, ?_, ?_⟩⟩
  · intro i hi
    obtain ⟨o1, o2, a1, a2, a3⟩ := pgs i (by omega)
    rw [nA, hd, show 2 + A.length + 1 + 2 * i = 3 + A.length + 2 * i by omega] at a3
    exact ⟨o1, o2, a1, a2, a3⟩
  · rw [e0, ← henc]
    exact ⟨_, _, by rw [hbuf, ← List.append_assoc]⟩
  · generalize hit : allItems A P M T _ _ = items at hbuf hoff ⊢
    rw [e0]
    refine isPdf_of hbuf hlen (by rw [← hit]; exact allItems_fst _ _ _ _ _ _) hoff ?_ ?_ ?_
    · intro x hx
      rw [← hit] at hx
      unfold allItems at hx
      simp only [List.mem_append, List.mem_singleton] at hx
      rcases hx with ((((hx | hx) | hx) | hx) | hx) | hx
      · exact hA.ok _ (mem_num hx)
      · exact hP.ok _ (mem_num hx)
      · rw [hx]; exact trivial
      · exact hM.ok _ (mem_num hx)
      · rw [hx]; exact trivial
      · exact hT.ok _ (mem_num hx)
    · refine ⟨c, ?_⟩
      rw [← hit]
      unfold allItems
      refine List.mem_append_right _ ?_
      have := num_mem (k := 3 + A.length + P.length + M.length) (o := T) (i := T0.length + 1) (b := Body.plain (B "<<\n/Type /Catalog\n/Pages 1 0 R\n" ++ c)) (by
        rw [← hTT, List.getElem?_append_right (by omega)]; simp)
      rw [show 2 + A.length + P.length + M.length + T.length = 3 + A.length + P.length + M.length + (T0.length + 1) by rw [← hTT]; simp; omega]
      exact this
    · refine ⟨i, ?_⟩
      rw [← hit]
      unfold allItems
      refine List.mem_append_right _ ?_
      have := num_mem (k := 3 + A.length + P.length + M.length) (o := T) (i := T0.length) (b := Body.plain (B "<<\n" ++ i ++ B ">>\n")) (by
        rw [← hTT, List.getElem?_append_right (by omega)]; simp)
      rw [show 2 + A.length + P.length + M.length + T.length - 1 = 3 + A.length + P.length + M.length + T0.length by rw [← hTT]; simp; omega]
      exact this

/-! ### The state after closing -/

/-- Only the buffer changed. -/
def BufOnly (f g : Fpdf) : Prop := ∃ b, g = { f with buffer := b }
theorem BufOnly.refl (f : Fpdf) : BufOnly f f := ⟨f.buffer, rfl⟩
theorem BufOnly.out {f g : Fpdf} (h : BufOnly f g) (hs : f.state = 1) (s : Bytes) : BufOnly f (g.out s) := by
  obtain ⟨b, rfl⟩ := h
  unfold Fpdf.out
  rw [if_neg (show ¬ (f.state = 2) by omega)]
  exact ⟨_, rfl⟩
theorem BufOnly.entries {f g : Fpdf} (h : BufOnly f g) (hs : f.state = 1) (o : List Nat) : BufOnly f (g.putXrefEntries o) := by
  unfold Fpdf.putXrefEntries
  induction o generalizing g with
  | nil => exact h
  | cons a o ih => exact ih (h.out hs _)

theorem putxref_only (f : Fpdf) (hs : f.state = 1) : ∃ b, f.putxref = { f with buffer := b, state := 3 } := by
  have key : ∃ g, BufOnly f g ∧ f.putxref = { g with state := 3 } := by
    unfold Fpdf.putxref
    dsimp only
    refine ⟨_, ?_, rfl⟩
    unfold Fpdf.outs Fpdf.outf
    refine BufOnly.out ?_ hs _
    refine BufOnly.out ?_ hs _
    refine BufOnly.out ?_ hs _
    refine BufOnly.out ?_ hs _
    have : ∀ g, BufOnly f g → BufOnly f (if g.m.protect.encrypted = true then (g.out (sprintf "/Encrypt %d 0 R" [.d g.m.protect.objNum])).out (B "/ID [()()]") else g) := by
      intro g hg
      split
      · exact (hg.out hs _).out hs _
      · exact hg
    apply this
    refine BufOnly.out ?_ hs _
    refine BufOnly.out ?_ hs _
    refine BufOnly.out ?_ hs _
    refine BufOnly.out ?_ hs _
    refine BufOnly.out ?_ hs _
    refine BufOnly.entries ?_ hs _
    refine BufOnly.out ?_ hs _
    refine BufOnly.out ?_ hs _
    exact BufOnly.out (BufOnly.refl f) hs _
  obtain ⟨g, ⟨b, rfl⟩, hg⟩ := key
  exact ⟨b, hg⟩

/-- What writing the file does not change at all. -/
def dfix (f : Fpdf) : Fpdf := { wfix f with pages := [], m.aliasMap := [], state := 0 }

theorem dfix_of_wfix {f g : Fpdf} (h : wfix g = wfix f) : dfix g = dfix f := by unfold dfix; rw [h]

theorem dfix_header (f : Fpdf) (hs : f.state = 1) : dfix f.putheader = dfix f := by
  obtain ⟨v, hv⟩ := putheader_spec f hs
  rw [hv]; rfl

theorem dfix_aliased (E : Ext) (f : Fpdf) : dfix (aliased E f) = dfix f := by
  obtain ⟨ps, b, am, hal, _⟩ := aliased_spec E f
  rw [hal]; rfl

/-- The parts of the document that are the same in the state after closing as when the pages were written. -/
structure Final (E : Ext) (f g : Fpdf) : Prop where
  page : g.page = f.page
  pages : g.pages = (sAli E f).pages
  p : g.p = f.p
  k : g.k = f.k
  links : g.l.links = f.l.links
  pageLinks : g.l.pageLinks = f.l.pageLinks
  compress : g.m.compress = f.m.compress
  encrypted : g.m.protect.encrypted = f.m.protect.encrypted
  key : g.m.protect.encryptionKey = f.m.protect.encryptionKey
  amap : g.m.aliasMap = (sAli E f).m.aliasMap
  outlines : g.l.outlines = f.l.outlines
  fixed : dfix g = dfix f

theorem wfix_alias {f g : Fpdf} (h : wfix g = wfix f) : g.m.aliasMap = f.m.aliasMap ∧ g.m.aliasNbPagesStr = f.m.aliasNbPagesStr := by
  refine ⟨?_, ?_⟩
  · have := congrArg (fun x : Fpdf => x.m.aliasMap) h; exact this
  · have := congrArg (fun x : Fpdf => x.m.aliasNbPagesStr) h; exact this

theorem wfix_outlines {f g : Fpdf} (h : wfix g = wfix f) : g.l.outlines = f.l.outlines := by
  have := congrArg (fun x : Fpdf => x.l.outlines) h; exact this

theorem Final.of_wfix {E : Ext} {f g h : Fpdf} (a : Final E f g) (b : wfix h = wfix g) : Final E f h := by
  obtain ⟨h1, h2, h3, h4, h5, h6, h7, h8⟩ := wfix_page b
  exact ⟨(wfix_pagenum b).trans a.page, h2.trans a.pages, h1.trans a.p, h3.trans a.k, h4.trans a.links, h5.trans a.pageLinks, h6.trans a.compress, h7.trans a.encrypted, h8.trans a.key, (wfix_alias b).1.trans a.amap, (wfix_outlines b).trans a.outlines, (dfix_of_wfix b).trans a.fixed⟩

theorem rootObj_wfix (f : Fpdf) (hs : f.state = 1) (nb : Nat) (kids : List Nat) (a b : Rat) : wfix (f.putPagesRoot nb kids a b) = wfix f :=
  (wfix_of_ofix (putPagesRoot_out f hs nb kids a b).fix).trans rfl

theorem resObj_wfix (E : Ext) (f : Fpdf) (hs : f.state = 1) : wfix (f.putResourceObj E) = wfix f := by
  obtain ⟨_, _, h, _⟩ := putResourceObj_out E f hs
  exact (wfix_of_ofix h.fix).trans rfl

theorem Final.closed {E : Ext} {f g : Fpdf} (a : Final E f g) (b : Bytes) : Final E f { g with buffer := b, state := 3 } :=
  ⟨a.page, a.pages, a.p, a.k, a.links, a.pageLinks, a.compress, a.encrypted, a.key, a.amap, a.outlines, a.fixed⟩

theorem header_same (f : Fpdf) (hs : f.state = 1) : f.putheader.page = f.page ∧ f.putheader.p = f.p ∧ f.putheader.k = f.k ∧ f.putheader.l = f.l ∧
    f.putheader.m.compress = f.m.compress ∧ f.putheader.m.protect = f.m.protect := by
  obtain ⟨v, hv⟩ := putheader_spec f hs
  rw [hv]
  exact ⟨rfl, rfl, rfl, rfl, rfl, rfl⟩

theorem aliased_same (E : Ext) (f : Fpdf) : (aliased E f).page = f.page ∧ (aliased E f).p = f.p ∧ (aliased E f).k = f.k ∧ (aliased E f).l = f.l ∧
    (aliased E f).m.compress = f.m.compress ∧ (aliased E f).m.protect = f.m.protect := by
  obtain ⟨ps, b, am, hal, _⟩ := aliased_spec E f
  rw [hal]
  exact ⟨rfl, rfl, rfl, rfl, rfl, rfl⟩

theorem ali_final (E : Ext) (f : Fpdf) (hs : f.state = 1) (hA : wfix (sAtt E f) = wfix f.putheader) : Final E f (sAli E f) := by
  obtain ⟨a1, a2, a3, a4, a5, a6⟩ := header_same f hs
  obtain ⟨c1, c2, c3, c4, c5, c6⟩ := aliased_same E (sAtt E f)
  have pA := wfix_page hA
  have pn := wfix_pagenum hA
  rw [a2, a3, a4, a5, a6] at pA
  rw [a1] at pn
  obtain ⟨b1, b2, b3, b4, b5, b6, b7, b8⟩ := pA
  refine ⟨c1.trans pn, rfl, c2.trans b1, c3.trans b3, ?_, ?_, c5.trans b6, ?_, ?_, rfl, ?_, (dfix_aliased E (sAtt E f)).trans ((dfix_of_wfix hA).trans (dfix_header f hs))⟩
  · show (aliased E (sAtt E f)).l.links = _; rw [c4]; exact b4
  · show (aliased E (sAtt E f)).l.pageLinks = _; rw [c4]; exact b5
  · show (aliased E (sAtt E f)).m.protect.encrypted = _; rw [c6]; exact b7
  · show (aliased E (sAtt E f)).m.protect.encryptionKey = _; rw [c6]; exact b8
  · show (aliased E (sAtt E f)).l.outlines = _; rw [c4, wfix_outlines hA, a4]

theorem enddoc_final (E : Ext) (f : Fpdf) (hs : f.state = 1) (he : f.err = none) (hg : (f.enddoc E).err = none) : Final E f (f.enddoc E) := by
  obtain ⟨e0, e1, e2, e3, e4, e5, e6⟩ := enddoc_stages E f he hg
  obtain ⟨v, hv⟩ := putheader_spec f hs
  have k1 : f.putheader.state = 1 := by rw [hv]; exact hs
  obtain ⟨A, hA⟩ := (sAtt_writes E f).w k1 e6
  have sA := hA.state.trans k1
  have pA := wfix_page hA.fix
  have h0 := ali_final E f hs hA.fix
  have sL : (sAli E f).state = 1 := (sAli_keeps E f).1.trans sA
  have hwl : Writes (sAli E f) (sLoop E f).1 := by unfold sLoop; exact putPagesLoop_writes E _ _ _ _ _
  obtain ⟨P, hP⟩ := hwl.w sL e5
  have sP := hP.state.trans sL
  have h1 := h0.of_wfix hP.fix
  have h2 : Final E f (sRoot E f) := h1.of_wfix (by unfold sRoot; exact rootObj_wfix _ sP _ _ _ _)
  have sR := sRoot_state E f sP
  obtain ⟨M, hM⟩ := (sRes_writes E f).w sR e3
  have h3 := h2.of_wfix hM.fix
  have sM := hM.state.trans sR
  have h4 : Final E f (sDict E f) := h3.of_wfix (by unfold sDict; exact resObj_wfix E _ sM)
  have sD := sDict_state E f sM
  obtain ⟨T, hT⟩ := (sEnd_writes E f).w sD e1
  have h5 := h4.of_wfix hT.fix
  obtain ⟨b, hb⟩ := putxref_only (sEnd E f) (hT.state.trans sD)
  rw [e0, hb]
  exact h5.closed b

end Verif.Proof
