import Verif.Props.CatalogCases
/-
C34: attachments.
-/
namespace Verif.Props
open Verif Verif.Model Verif.Spec Verif.Proof

/-- A call of `SetAttachments`. -/
def setsFiles : Op → Bool
  | .setAttachments _ => true
  | _ => false

/-- Programs in which the pointer `p` given to `AddAttachmentAnnotation` points to the attachment `files p`. -/
def filesAre (files : Nat → Attachment) (bad : Op → Bool) : Guard :=
  { op := fun f cb op => pagesFirst.op f cb op ∧ bad op = false ∧ ∀ p a x y w h, op = .attachAnnotation p a x y w h → a = files p, cb := pagesFirst.cb }

theorem filesAre_open (files : Nat → Attachment) (bad : Op → Bool) : OpenGuard (filesAre files bad) := ⟨fun _ _ _ h => ⟨h.1.1, h.1.2.1⟩, fun _ h => h⟩
theorem filesAre_pf {files : Nat → Attachment} {bad : Op → Bool} {E : Ext} {f g : Fpdf} (h : Reach E (filesAre files bad) f g) : Reach E pagesFirst f g :=
  Reach.mono (G := filesAre files bad) (fun _ _ _ h => h.1) (fun _ h => h) h
theorem CbReach.filesAre {files : Nat → Attachment} {bad : Op → Bool} {E : Ext} {cb : Cb} (h : CbReach E (filesAre files bad) cb) : CbReach E pagesFirst cb :=
  ⟨fun a ha s hs => filesAre_pf (h.header a ha s hs), fun a ha b s hs => filesAre_pf (h.footer a ha b s hs), fun s => filesAre_pf (h.accept s)⟩

/-! ### What is recorded -/

/-- The annotations have their attachments, and there is a list of annotations for each page. -/
structure FilesOk (files : Nat → Attachment) (f : Fpdf) : Prop where
  heap : ∀ p a, lookup p f.l.heap = some a → a = files p
  ann : ∀ an ∈ f.l.pageAttachments.flatten, lookup an.ptr f.l.heap = some (files an.ptr)
  len : f.l.pageAttachments.length = f.pages.length

/-- Annotations are kept. -/
structure FilesLe (files : Nat → Attachment) (f g : Fpdf) : Prop where
  ok : FilesOk files f → FilesOk files g
  ann : ∀ (q : Nat) (l : List AnnotAttach), f.l.pageAttachments[q]? = some l → ∃ m, g.l.pageAttachments[q]? = some (l ++ m)

theorem FilesLe.of_eq {files : Nat → Attachment} {f g : Fpdf} (h1 : g.l.heap = f.l.heap) (h2 : g.l.pageAttachments = f.l.pageAttachments) (h3 : g.pages.length = f.pages.length) : FilesLe files f g where
  ok := fun o => ⟨by rw [h1]; exact o.heap, by rw [h1, h2]; exact o.ann, by rw [h2, h3]; exact o.len⟩
  ann := fun q l h => ⟨[], by rw [h2, h]; simp⟩

theorem beginpage_att (f : Fpdf) (o : Bytes) (sz : Size) (he : f.err = none) :
    (f.beginpage o sz).l.heap = f.l.heap ∧ (f.beginpage o sz).l.pageAttachments = f.l.pageAttachments ++ [[]] ∧ (f.beginpage o sz).pages = f.pages ++ [[]] := by
  unfold Fpdf.beginpage
  rw [if_neg (by simp [he])]
  dsimp only
  generalize Fpdf.orientLetter _ o = ol
  split <;> split <;> exact ⟨rfl, rfl, rfl⟩

theorem files_fine (files : Nat → Attachment) : FineRel (FilesLe files) where
  trans := fun f g h a b => ⟨fun o => b.ok (a.ok o), fun q l hl => by
    obtain ⟨m1, h1⟩ := a.ann q l hl
    obtain ⟨m2, h2⟩ := b.ann q _ h1
    exact ⟨m1 ++ m2, by rw [h2, List.append_assoc]⟩⟩
  stp := fun f g hb hl => by
    have h1 := congrArg (fun f : Fpdf => f.l.heap) hb
    have h2 := congrArg (fun f : Fpdf => f.l.pageAttachments) hb
    exact .of_eq h1 h2 hl
  fstep := fun f g h => by
    have h1 := congrArg (fun f : Fpdf => f.l.heap) h.core
    have h2 := congrArg (fun f : Fpdf => f.l.pageAttachments) h.core
    exact .of_eq h1 h2 h.emits.frm.len
  begin := fun f o sz => by
    by_cases he : f.err = none
    swap
    · rw [show f.beginpage o sz = f by unfold Fpdf.beginpage; rw [if_pos he]]
      exact .of_eq rfl rfl rfl
    · obtain ⟨h1, h2, h3⟩ := beginpage_att f o sz he
      generalize f.beginpage o sz = g at *
      refine ⟨fun o => ⟨by rw [h1]; exact o.heap, ?_, by rw [h2, h3]; simp [o.len]⟩, fun q l hl => ⟨[], ?_⟩⟩
      · rw [h1, h2]; simpa using o.ann
      · rw [h2, List.getElem?_append_left (List.getElem?_eq_some_iff.mp hl).1, hl]; simp

theorem modifyAt_flatten {α : Type} (i : Nat) (l : List (List α)) (x y : α) (h : y ∈ (modifyAt i (· ++ [x]) l).flatten) : y = x ∨ y ∈ l.flatten := by
  induction l generalizing i with
  | nil => simp [modifyAt] at h
  | cons a l ih =>
    cases i with
    | zero => simp [modifyAt] at h; simp; tauto
    | succ i =>
      simp only [modifyAt, List.flatten_cons, List.mem_append] at h ⊢
      rcases h with h | h
      · exact .inr (.inl h)
      · rcases ih i h with h | h
        · exact .inl h
        · exact .inr (.inr h)

/-- The annotation that `AddAttachmentAnnotation` records. -/
def annotOf (f : Fpdf) (p : Nat) (x y w h : Rat) : AnnotAttach := { ptr := p, x := x * f.k, y := f.p.hPt - y * f.k, w := w * f.k, h := h * f.k }

theorem attachAnnotation_eq (f : Fpdf) (p : Nat) (a : Attachment) (x y w h : Rat) : ∃ hp, f.attachAnnotation p a x y w h =
      { f with l.heap := hp, l.pageAttachments := modifyAt f.page (· ++ [annotOf f p x y w h]) f.l.pageAttachments } ∧
      (∀ b, lookup p f.l.heap = some b → lookup p hp = some b) ∧ (lookup p f.l.heap = none → lookup p hp = some a) ∧ ∀ q, q ≠ p → lookup q hp = lookup q f.l.heap := by
  unfold Fpdf.attachAnnotation annotOf
  cases hl : lookup p f.l.heap with
  | some b => exact ⟨f.l.heap, rfl, fun c hc => by rw [hl]; exact hc, fun h => (by cases h), fun _ _ => rfl⟩
  | none => exact ⟨Model.insert p a f.l.heap, rfl, fun c hc => (by cases hc), fun _ => lookup_insert_self _ _ _, fun q hq => lookup_insert_ne _ _ hq⟩

theorem attachAnnotation_files {files : Nat → Attachment} (f : Fpdf) (p : Nat) (x y w h : Rat) : FilesLe files f (f.attachAnnotation p (files p) x y w h) := by
  obtain ⟨hp, e, h1, h2, h3⟩ := attachAnnotation_eq f p (files p) x y w h
  rw [e]
  have ha : (annotOf f p x y w h).ptr = p := rfl
  generalize annotOf f p x y w h = an at *
  refine ⟨fun o => ?_, fun q l hl => ?_⟩
  · have hpp : lookup p hp = some (files p) := by
      cases hl : lookup p f.l.heap with
      | none => exact h2 hl
      | some b => rw [h1 b hl, o.heap p b hl]
    have up : ∀ q, lookup q f.l.heap = some (files q) → lookup q hp = some (files q) := fun q hq => by
      by_cases hqp : q = p
      · rw [hqp]; exact hpp
      · rw [h3 q hqp]; exact hq
    refine ⟨fun q b hq => ?_, fun x hx => ?_, ?_⟩
    · by_cases hqp : q = p
      · have hq : lookup q hp = some b := hq
        rw [hqp, hpp] at hq
        cases hq; rw [hqp]
      · exact o.heap q b ((h3 q hqp).symm.trans hq)
    · rcases modifyAt_flatten _ _ _ _ hx with rfl | hx
      · rw [ha]; exact hpp
      · exact up _ (o.ann x hx)
    · show (modifyAt _ _ _).length = f.pages.length
      rw [modifyAt_length]; exact o.len
  · show ∃ m, (modifyAt _ _ _)[q]? = _
    rw [modifyAt_getElem?]
    split
    · exact ⟨[an], by rw [hl]; rfl⟩
    · exact ⟨[], by rw [hl]; simp⟩

/-- A call of `AddAttachmentAnnotation`. -/
def annotates : Op → Bool
  | .attachAnnotation .. => true
  | _ => false

theorem files_own (E : Ext) (files : Nat → Attachment) (cb : Cb) (f : Fpdf) (op : Op) (hs : staysOnPage op = true)
    (ho : ∀ p a x y w h, op = .attachAnnotation p a x y w h → a = files p) : FilesLe files f (f.exec E cb op) := by
  by_cases hu : ∃ p a x y w h, op = .attachAnnotation p a x y w h
  · obtain ⟨p, a, x, y, w, h, rfl⟩ := hu
    rw [ho p a x y w h rfl]
    exact attachAnnotation_files f p x y w h
  · have h := foot_get (fun f => (f.l.heap, f.l.pageAttachments)) E cb f op hs (fun g => by
      cases op <;> first | rfl | exact absurd ⟨_, _, _, _, _, _, rfl⟩ hu)
    simp only [Prod.mk.injEq] at h
    exact .of_eq h.1 h.2 (exec_frm E cb f op hs).len

theorem files_help (E : Ext) (files : Nat → Attachment) (cb : Cb) (f : Fpdf) (op : Op) (ho : helper op = true) : FilesLe files f (f.exec E cb op) :=
  files_own E files cb f op (helper_stays ho) (fun _ _ _ _ _ _ he => by subst he; simp [helper] at ho)

theorem files_last {E : Ext} {files : Nat → Attachment} {bad : Op → Bool} {cb : Cb} {f0 f g last : Fpdf} {file : Bytes} {v : Nat} {A P M T : List Body} {d : Bytes}
    {items : List (Nat × Body)} (hf : Reach E (filesAre files bad) f0 f) (hcb : CbReach E (filesAre files bad) cb) (hp : Printed E cb f g last file v A P M T d items) : FilesLe files f0 last :=
  last_fine (filesAre_open files bad) (files_fine files) (fun cb f op ho => files_help E files cb f op ho) (fun f cb op hg hs => files_own E files cb f op hs hg.2.2) hf hcb hp.eq hp.page1

theorem new_files (files : Nat → Attachment) (o u s : Bytes) (sz : Size) : FilesOk files (Fpdf.new o u s sz) := by
  have h := new_get (fun f => (f.l.heap, f.l.pageAttachments, f.pages)) (fun _ => rfl) o u s sz
  simp only [Prod.mk.injEq] at h
  obtain ⟨h1, h2, h3⟩ := h
  exact ⟨by rw [h1]; intro p a h; simp [lookup] at h, by rw [h2]; simp, by rw [h2, h3]; rfl⟩

/-! ### What is in the file -/

theorem embAt_file {E : Ext} {f g s : Fpdf} {v : Nat} {A P M T : List Body} {d : Bytes} {items : List (Nat × Body)} {pdf : Bytes} (h : Written E f v A P M T d items pdf)
    (hE : s.m.protect.encrypted = f.m.protect.encrypted) (hK : s.m.protect.encryptionKey = f.m.protect.encryptionKey) (hg : Final E f g) {inflate : Bytes → Bytes} (hinf : ∀ b, inflate (E.deflate b) = b) {o1 o2 o3 : List Body} (hA : A = o1 ++ o2 ++ o3) (hn : s.n = 2 + o1.length) {n : Nat} {a : Attachment}
    (ha : EmbAt E s o2 n a) :
    3 < n ∧ ∃ desc, FileAt items (decryptOf E g) inflate n (n - 1) a.filename desc a.content ∧ (g.m.protect.encrypted = false → StringFor a.description true desc) := by
  obtain ⟨k, b1, b2, e, k1, k2, ho⟩ := ha
  obtain ⟨data, rfl, hd⟩ := ho.file
  obtain ⟨c1, c2, rfl, hc, hc2⟩ := ho.spec
  have l1 := (List.getElem?_eq_some_iff.mp k1).1
  have l2 := (List.getElem?_eq_some_iff.mp k2).1
  have m1 : A[o1.length + k]? = some (.stream (fileDict E a.content) data) := by
    rw [hA, List.append_assoc, List.getElem?_append_right (by omega), Nat.add_sub_cancel_left, List.getElem?_append_left l1]; exact k1
  have m2 : A[o1.length + (k + 1)]? = some (.plain (filespecText c1 (n - 1) c2)) := by
    rw [hA, List.append_assoc, List.getElem?_append_right (by omega), Nat.add_sub_cancel_left, List.getElem?_append_left l2]; exact k2
  have q1 := h.mem_att m1
  have q2 := h.mem_att m2
  rw [show 3 + (o1.length + k) = n - 1 by omega] at q1
  rw [show 3 + (o1.length + (k + 1)) = n by omega] at q2
  refine ⟨by omega, c2, ⟨textstringPlain c1, c1, textstringPlain c2, (E.deflate a.content).length, B "/Params << /CheckSum <" ++ hexEnc (E.md5 a.content) ++ B "> /Size " ++ natDec a.content.length ++ B " >> >>\n\n", data, ?_,
    readLit_textstringPlain c1, ?_, readLit_textstringPlain c2, ?_, ?_⟩, fun he => ?_⟩
  · rw [← natDec_decimal]; exact q2
  · rw [show decryptOf E g n c1 = _ from Holds.read (hg.encrypted.trans hE.symm) (hg.key.trans hK.symm) hc]; exact stringFor_u16 _
  · rw [← natDec_decimal]
    unfold fileDict at q1
    rw [show B " /Filter /FlateDecode /Params << /CheckSum <" = B " /Filter /FlateDecode " ++ B "/Params << /CheckSum <" from rfl] at q1
    simp only [List.append_assoc] at q1 ⊢
    exact q1
  · rw [show decryptOf E g (n - 1) data = _ from Holds.read (hg.encrypted.trans hE.symm) (hg.key.trans hK.symm) hd]; exact hinf _
  · rw [hc2 (hE.trans (hg.encrypted.symm.trans he))]; exact stringFor_u16 _

/-- The attachment is in the file; `n` is its file specification. -/
def Embedded (items : List (Nat × Body)) (E : Ext) (g : Fpdf) (inflate : Bytes → Bytes) (n : Nat) (a : Attachment) : Prop :=
  ∃ desc, FileAt items (decryptOf E g) inflate n (n - 1) a.filename desc a.content ∧ (g.m.protect.encrypted = false → StringFor a.description true desc)

/-- The document attachments `atts` and those in memory. -/
structure FilesIn (items : List (Nat × Body)) (E : Ext) (g : Fpdf) (inflate : Bytes → Bytes) (atts : List Attachment) (ptrs : List Nat) (heap heap2 : List (Nat × Attachment)) (k1 k2 : Nat) (ns : List Nat) : Prop where
  len : ns.length = atts.length
  listed : ∀ (i : Nat) a, atts[i]? = some a → a.objectNumber = 0 → ∃ n, ns[i]? = some n ∧ n < k1 ∧ Embedded items E g inflate n a
  once : ∀ (i j : Nat) a b n, atts[i]? = some a → atts[j]? = some b → a.objectNumber = 0 → b.objectNumber = 0 → ns[i]? = some n → ns[j]? = some n → i = j
  only : ∀ m, 3 ≤ m → m < k1 → ∃ (i : Nat) (a : Attachment) (n : Nat), atts[i]? = some a ∧ a.objectNumber = 0 ∧ ns[i]? = some n ∧ (m = n ∨ m = n - 1)
  ptr : ∀ p a, p ∈ ptrs → lookup p heap = some a → a.objectNumber = 0 → ∃ b, lookup p heap2 = some b ∧ b.filename = a.filename ∧ b.description = a.description ∧
    k1 ≤ b.objectNumber - 1 ∧ b.objectNumber < k2 ∧ Embedded items E g inflate b.objectNumber a
  ptrOnce : ∀ p q a b c d, p ∈ ptrs → q ∈ ptrs → lookup p heap = some a → lookup q heap = some b → a.objectNumber = 0 → b.objectNumber = 0 →
    lookup p heap2 = some c → lookup q heap2 = some d → c.objectNumber = d.objectNumber → p = q
  ptrOnly : ∀ m, k1 ≤ m → m < k2 → ∃ p a b, p ∈ ptrs ∧ lookup p heap = some a ∧ a.objectNumber = 0 ∧ lookup p heap2 = some b ∧ (m = b.objectNumber ∨ m = b.objectNumber - 1)

theorem written_files {E : Ext} {f g : Fpdf} {v : Nat} {A P M T : List Body} {d : Bytes} {items : List (Nat × Body)} {pdf : Bytes} (h : Written E f v A P M T d items pdf)
    (hs : f.state = 1) (hn : f.n = 2) (hg : Final E f g) {inflate : Bytes → Bytes} (hinf : ∀ b, inflate (E.deflate b) = b) :
    ∃ k1 ns, (sInf E f).embeddedFiles = filesEntry ns ∧
      FilesIn items E g inflate f.l.attachments (f.l.pageAttachments.flatten.map (·.ptr)) f.l.heap (sAli E f).l.heap k1 (3 + A.length) ns := by
  obtain ⟨A1, A2, hA, w1, hd, hp, hh⟩ := h.attach.split
  have he := (h.ending hs hn).attach
  have hal : (sAli E f).l = (sAtt E f).l := (aliased_same E (sAtt E f)).2.2.2.1
  have hhd := header_same f hs
  have hpn : f.putheader.n = 2 := by
    obtain ⟨u, hu⟩ := putheader_spec f hs
    rw [hu]; exact hn
  have e1 := wfix_page w1.fix
  refine ⟨3 + A1.length, _, embeddedFiles_entry _, ?_⟩
  rw [he, hal]
  have n1 : (f.putheader.putAttachments E).n = 2 + A1.length := by rw [w1.n, hpn]
  have hk1 : (f.putheader.putAttachments E).m.protect.encrypted = f.m.protect.encrypted := by rw [e1.2.2.2.2.2.2.1, hhd.2.2.2.2.2]
  have hk2 : (f.putheader.putAttachments E).m.protect.encryptionKey = f.m.protect.encryptionKey := by rw [e1.2.2.2.2.2.2.2, hhd.2.2.2.2.2]
  have hAl : A.length = A1.length + A2.length := by rw [hA]; simp
  clear he hal w1 e1
  generalize f.putheader.putAttachments E = s1 at *
  generalize sAtt E f = s2 at *
  refine ⟨?_, ?_, ?_, ?_, ?_, ?_, ?_⟩
  · rw [List.length_map]; exact hd.len
  · intro i a ha h0
    obtain ⟨n, r1, r2⟩ := hd.fresh i a ha h0
    refine ⟨n, by rw [List.getElem?_map, r1]; rfl, ?_, ?_⟩
    · obtain ⟨k, b1, b2, q1, q2, q3, q4⟩ := r2
      have := (List.getElem?_eq_some_iff.mp q3).1
      omega
    · exact (embAt_file h (by rw [hhd.2.2.2.2.2]) (by rw [hhd.2.2.2.2.2]) hg hinf (o1 := []) (o2 := A1) (o3 := A2) (by rw [hA]; rfl) (by rw [hpn]; rfl) r2).2
  · intro i j a b n ha hb a0 b0 hi hj
    rw [List.getElem?_map] at hi hj
    obtain ⟨c, hc, rfl⟩ := Option.map_eq_some_iff.mp hi
    obtain ⟨c', hc', e⟩ := Option.map_eq_some_iff.mp hj
    exact hd.inj i j a b c ha hb a0 b0 hc c' hc' e.symm
  · intro m m1 m2
    obtain ⟨i, a, n, q1, q2, q3, q4⟩ := hd.only (m - 3) (by omega)
    exact ⟨i, a, n, q1, q2, by rw [List.getElem?_map, q3]; rfl, by omega⟩
  · intro p a hpp ha h0
    obtain ⟨n, r1, r2⟩ := hp.fresh p a hpp (by rw [hh]; exact ha) h0
    refine ⟨_, r1, rfl, rfl, ?_⟩
    have hf := embAt_file h hk1 hk2 hg hinf (o1 := A1) (o2 := A2) (o3 := []) (by rw [hA]; simp) n1 r2
    obtain ⟨k, b1, b2, q1, q2, q3, q4⟩ := r2
    have := (List.getElem?_eq_some_iff.mp q3).1
    refine ⟨?_, ?_, hf.2⟩
    · show _ ≤ n - 1; omega
    · show n < _; omega
  · intro p q a b c d hpp hqq ha hb
    exact hp.inj p q a b c d hpp hqq (by rw [hh]; exact ha) (by rw [hh]; exact hb)
  · intro m m1 m2
    obtain ⟨p, a, n, q1, q2, q3, q4, q5⟩ := hp.only (m - (3 + A1.length)) (by omega)
    exact ⟨p, a, _, q1, by rw [← hh]; exact q2, q3, q4, by show m = n ∨ m = n - 1; omega⟩

/-! ### C34 -/

/-- **C34** The attachments last given to `SetAttachments` are in the file, each once (if it has not been used before): the list of embedded files names the file specification of
each, which has its name, its description and its content, and different attachments are different objects. -/
theorem C34_listed (E : Ext) (inflate : Bytes → Bytes) (hinf : ∀ b, inflate (E.deflate b) = b) (o u s : Bytes) (sz : Size) (f0 f : Fpdf) (cb : Cb) (wf : Bool) (atts : List Attachment)
    (h0 : Reach E pagesFirst (Fpdf.new o u s sz) f0) (hf : Reach E (pagesWithout setsFiles) (f0.exec E {} (.setAttachments atts)) f) (hcb : CbReach E (pagesWithout setsFiles) cb)
    (hok : errOf E cb f wf = none) (hsize : (fileOf E cb f wf).length < 10 ^ 10) :
    ∃ version items root info c ns, IsPdf (fileOf E cb f wf) [] version items root info ∧ IsCatalog items root c ∧ c.files = filesEntry ns ∧ ns.length = atts.length ∧
      (∀ (i : Nat) a, atts[i]? = some a → a.objectNumber = 0 → ∃ n, ns[i]? = some n ∧ Embedded items E (docOf E cb f wf) inflate n a) ∧
      (∀ (i j : Nat) a b n, atts[i]? = some a → atts[j]? = some b → a.objectNumber = 0 → b.objectNumber = 0 → ns[i]? = some n → ns[j]? = some n → i = j) := by
  have h2 := (setup_step h0 (.setAttachments atts) rfl (by simp)).trans (pagesWithout_pf hf)
  obtain ⟨last, v, A, P, M, T, d, items, c, base, hp, hn, q1, q2, _, _, _, _, _, _, q3⟩ := catalog_pf h2 (CbReach.pagesWithout hcb) hok hsize
  obtain ⟨k1, ns, e, hi⟩ := written_files hp.written hp.state hn hp.fin hinf
  have hk : last.l.attachments = (f0.exec E {} (.setAttachments atts)).l.attachments :=
    kept_last (fun f => f.l.attachments) setsFiles (fun _ => rfl) (fun op ho => by cases op <;> first | rfl | (simp [helper] at ho))
      (fun cb f op hs hb => foot_get (fun f => f.l.attachments) E cb f op hs (fun g => by cases op <;> first | rfl | cases hb)) hf hcb hp
  have hk : last.l.attachments = atts := hk
  rw [hk] at hi
  refine ⟨v, items, _, _, c, ns, q1, q2, q3.trans e, hi.len, fun i a ha h0 => ?_, hi.once⟩
  obtain ⟨n, r1, _, r2⟩ := hi.listed i a ha h0
  exact ⟨n, r1, r2⟩

/-- **C34** And without attachment annotations nothing else is embedded: the objects before the first page are those of the attachments. -/
theorem C34_only (E : Ext) (inflate : Bytes → Bytes) (hinf : ∀ b, inflate (E.deflate b) = b) (o u s : Bytes) (sz : Size) (f0 f : Fpdf) (cb : Cb) (wf : Bool) (atts : List Attachment)
    (h0 : Reach E (pagesWithout annotates) (Fpdf.new o u s sz) f0) (hf : Reach E (pagesWithout attaches) (f0.exec E {} (.setAttachments atts)) f) (hcb : CbReach E (pagesWithout attaches) cb)
    (hok : errOf E cb f wf = none) (hsize : (fileOf E cb f wf).length < 10 ^ 10) :
    ∃ version items root info c ns kids rest, IsPdf (fileOf E cb f wf) [] version items root info ∧ PageTree items kids rest ∧ 1 ≤ kids.length ∧ IsCatalog items root c ∧ c.files = filesEntry ns ∧
      ∀ m, 3 ≤ m → m < kids.getD 0 0 → ∃ (i : Nat) (a : Attachment) (n : Nat), atts[i]? = some a ∧ a.objectNumber = 0 ∧ ns[i]? = some n ∧ (m = n ∨ m = n - 1) := by
  have h1 := setup_step (pagesWithout_pf h0) (.setAttachments atts) rfl (by simp)
  have h2 := h1.trans (pagesWithout_pf hf)
  obtain ⟨last, v, A, P, M, T, d, items, c, base, hp, hn, q1, q2, _, _, _, _, _, _, q3⟩ := catalog_pf h2 (CbReach.pagesWithout hcb) hok hsize
  obtain ⟨k1, ns, e, hi⟩ := written_files hp.written hp.state hn hp.fin hinf
  have hk : last.l.attachments = (f0.exec E {} (.setAttachments atts)).l.attachments :=
    kept_last (fun f => f.l.attachments) attaches (fun _ => rfl) (fun op ho => by cases op <;> first | rfl | (simp [helper] at ho))
      (fun cb f op hs hb => foot_get (fun f => f.l.attachments) E cb f op hs (fun g => by cases op <;> first | rfl | cases hb)) hf hcb hp
  have hk : last.l.attachments = atts := hk
  have hq : last.l.pageAttachments.flatten = (f0.exec E {} (.setAttachments atts)).l.pageAttachments.flatten :=
    kept_last (fun f => f.l.pageAttachments.flatten) attaches (fun f => by simp [bits]) (fun op ho => by cases op <;> first | rfl | (simp [helper] at ho))
      (fun cb f op hs hb => foot_get (fun f => f.l.pageAttachments.flatten) E cb f op hs (fun g => by cases op <;> first | rfl | cases hb)) hf hcb hp
  have hr : f0.l.pageAttachments.flatten = (Fpdf.new o u s sz).l.pageAttachments.flatten :=
    ((DataRel.of (fun f => f.l.pageAttachments.flatten) (fun a b => b = a) (fun _ => rfl) (fun _ _ _ h1 h2 => h2.trans h1) (fun f => by simp [bits])).reach (pagesWithout_open annotates)
      (fun cb f op ho => foot_get (fun f => f.l.pageAttachments.flatten) E cb f op (helper_stays ho) (fun g => by cases op <;> first | rfl | (simp [helper] at ho)))
      (fun f cb op hg hs => foot_get (fun f => f.l.pageAttachments.flatten) E cb f op hs (fun g => by have := hg.2; cases op <;> first | rfl | cases this)) h0).2
  have hq : last.l.pageAttachments.flatten = [] := hq.trans (hr.trans (congrArg Prod.snd (new_att o u s sz)))
  rw [hk, hq] at hi
  have hpg : 1 ≤ last.page := Nat.pos_of_ne_zero hp.page
  refine ⟨v, items, _, _, c, ns, _, _, q1, hp.written.pageTree, by simpa using hpg, q2, q3.trans e, fun m m1 m2 => ?_⟩
  rw [List.getD_eq_getElem?_getD, List.getElem?_map, List.getElem?_range (by omega)] at m2
  have m2 : m < 3 + A.length + 2 * 0 := m2
  by_cases hm : m < k1
  · exact hi.only m m1 hm
  · obtain ⟨p, _, _, hpp, _⟩ := hi.ptrOnly m (by omega) (by omega)
    simp at hpp

/-- The rectangle of an annotation, on a page whose height is `hPt` points. -/
def rectText (k hPt x y w h : Rat) : Bytes := fmtF 2 (x * k) ++ B " " ++ fmtF 2 (hPt - y * k) ++ B " " ++ fmtF 2 (x * k + w * k) ++ B " " ++ fmtF 2 (hPt - y * k - h * k)

theorem attachText_annot (f0 : Fpdf) (p : Nat) (x y w h : Rat) (u v c1 c2 : Bytes) (n : Nat) :
    FileAnnot (B "/Annots [" ++ u ++ attachText (annotOf f0 p x y w h) c1 c2 n ++ v) (rectText f0.k f0.p.hPt x y w h) c1 c2 n := by
  refine ⟨u, v, textstringPlain c1, textstringPlain c2, B " /AP << /N << /Type /XObject /Subtype /Form /BBox [" ++ rectText f0.k f0.p.hPt x y w h ++ B "] /Length 0 >>\nstream\nendstream>>", ?_,
    readLit_textstringPlain c1, readLit_textstringPlain c2⟩
  unfold attachText annotOf rectText
  rw [show B "] /Length 0 >>\nstream\nendstream>>/FS " = B "] /Length 0 >>\nstream\nendstream>>" ++ B "/FS " from rfl, natDec_decimal]
  simp only [List.append_assoc]

theorem wfix_annots {f g : Fpdf} (h : wfix g = wfix f) : g.l.pageAttachments = f.l.pageAttachments := by
  have := congrArg (fun x : Fpdf => x.l.pageAttachments) h; exact this

theorem ali_annots {E : Ext} {f : Fpdf} {A : List Body} (hs : f.state = 1) (w : W f.putheader (sAtt E f) A) : (sAli E f).l.pageAttachments = f.l.pageAttachments := by
  have hal : (sAli E f).l = (sAtt E f).l := (aliased_same E (sAtt E f)).2.2.2.1
  rw [hal, wfix_annots w.fix, (header_same f hs).2.2.2.1]

theorem annot_kept {E : Ext} {files : Nat → Attachment} {o u s : Bytes} {sz : Size} {f0 last : Fpdf} {p : Nat} {x y w h : Rat} (r1 : Reach E (filesAre files fun _ => false) (Fpdf.new o u s sz) f0)
    (r2 : FilesLe files (f0.exec E {} (.attachAnnotation p (files p) x y w h)) last) : annotOf f0 p x y w h ∈ last.l.pageAttachments.getD f0.page [] := by
  obtain ⟨ho, hle⟩ := FineRel.reach (filesAre_open files fun _ => false) (files_fine files) (fun cb f op ho => files_help E files cb f op ho) (fun f cb op hg hs => files_own E files cb f op hs hg.2.2) r1
  have hno := new_open o u s sz
  have hlen := (hle.ok (new_files files o u s sz)).len
  have hlt : f0.page < f0.pages.length := (ho.page (by rw [hno.2.2.2.1, hno.2.2.2.2.1]; decide)).1
  obtain ⟨hp', he, _⟩ := attachAnnotation_eq f0 p (files p) x y w h
  have h3 : (f0.exec E {} (.attachAnnotation p (files p) x y w h)).l.pageAttachments[f0.page]? = some (f0.l.pageAttachments.getD f0.page [] ++ [annotOf f0 p x y w h]) := by
    show (f0.attachAnnotation p (files p) x y w h).l.pageAttachments[f0.page]? = _
    rw [he]
    show (modifyAt _ _ _)[f0.page]? = _
    rw [modifyAt_getElem?, if_pos rfl, List.getD_eq_getElem?_getD, List.getElem?_eq_getElem (by omega)]
    rfl
  obtain ⟨m, hm⟩ := r2.ann _ _ h3
  rw [List.getD_eq_getElem?_getD, hm]
  simp

/-- **C34** Every call of `AddAttachmentAnnotation` puts an annotation on its page, with the rectangle asked for, that names the file specification of the attachment; all annotations
for the same attachment name the same object, and those for different attachments name different ones. -/
theorem C34_annotations (E : Ext) (inflate : Bytes → Bytes) (hinf : ∀ b, inflate (E.deflate b) = b) (files : Nat → Attachment) (o u s : Bytes) (sz : Size) (f : Fpdf) (cb : Cb) (wf : Bool)
    (hf : Reach E (filesAre files fun _ => false) (Fpdf.new o u s sz) f) (hcb : CbReach E (filesAre files fun _ => false) cb)
    (hok : errOf E cb f wf = none) (hsize : (fileOf E cb f wf).length < 10 ^ 10) :
    ∃ version items root info kids rest, ∃ num : Nat → Nat, IsPdf (fileOf E cb f wf) [] version items root info ∧ PageTree items kids rest ∧
      (∀ f0 p x y w h, Reach E (filesAre files fun _ => false) (Fpdf.new o u s sz) f0 → f0.page ≠ 0 → (files p).objectNumber = 0 →
        Reach E (filesAre files fun _ => false) (f0.exec E {} (.attachAnnotation p (files p) x y w h)) f → f0.page ≤ kids.length →
        Embedded items E (docOf E cb f wf) inflate (num p) (files p) ∧
        ∃ size annots contents desc name, PageObject items (readIn E inflate (docOf E cb f wf)) (kids.getD (f0.page - 1) 0) size annots contents ∧
          FileAnnot annots (rectText f0.k f0.p.hPt x y w h) desc name (num p) ∧
          ((docOf E cb f wf).m.protect.encrypted = false → StringFor (files p).description true desc ∧ StringFor (files p).filename true name)) ∧
      ∀ f0 p x y w h, ∀ f1 q x' y' w' h', Reach E (filesAre files fun _ => false) (Fpdf.new o u s sz) f0 → f0.page ≠ 0 → (files p).objectNumber = 0 →
        Reach E (filesAre files fun _ => false) (f0.exec E {} (.attachAnnotation p (files p) x y w h)) f →
        Reach E (filesAre files fun _ => false) (Fpdf.new o u s sz) f1 → f1.page ≠ 0 → (files q).objectNumber = 0 →
        Reach E (filesAre files fun _ => false) (f1.exec E {} (.attachAnnotation q (files q) x' y' w' h')) f → num p = num q → p = q := by
  obtain ⟨last, v, A, P, M, T, d, items, c, base, hp, hn, q1, q2, _⟩ := catalog_pf (filesAre_pf hf) (CbReach.filesAre hcb) hok hsize
  obtain ⟨k1, ns, e, hi⟩ := written_files hp.written hp.state hn hp.fin hinf
  have hok2 := (files_last hf hcb hp).ok (new_files files o u s sz)
  have hpa := ali_annots hp.state hp.written.att
  have key : ∀ f0 p x y w h, Reach E (filesAre files fun _ => false) (Fpdf.new o u s sz) f0 → f0.page ≠ 0 →
      Reach E (filesAre files fun _ => false) (f0.exec E {} (.attachAnnotation p (files p) x y w h)) f → annotOf f0 p x y w h ∈ last.l.pageAttachments.getD f0.page [] :=
    fun f0 p x y w h r1 _ r2 => annot_kept r1 (files_last r2 hcb hp)
  have mem : ∀ an q, an ∈ last.l.pageAttachments.getD q [] → an ∈ last.l.pageAttachments.flatten := by
    intro an q h
    rw [List.getD_eq_getElem?_getD] at h
    cases hq : last.l.pageAttachments[q]? with
    | none => rw [hq] at h; simp at h
    | some l =>
      rw [hq] at h
      exact List.mem_flatten.mpr ⟨l, List.mem_of_getElem? hq, h⟩
  refine ⟨v, items, _, _, _, _, fun p => ((lookup p (sAli E last).l.heap).map (·.objectNumber)).getD 0, q1, hp.written.pageTree, ?_, ?_⟩
  · intro f0 p x y w h r1 hpg h0 r2 hle
    have hm := key f0 p x y w h r1 hpg r2
    have hm2 := mem _ _ hm
    obtain ⟨b, b1, b2, b3, _, _, b4⟩ := hi.ptr p (files p) (List.mem_map.mpr ⟨_, hm2, rfl⟩) (hok2.ann _ hm2) h0
    beta_reduce
    rw [b1]
    have hle : f0.page ≤ last.page := by simpa using hle
    obtain ⟨annots, a1, _, a2⟩ := hp.written.pageObject' hp.state hp.fin hinf (f0.page - 1) (by omega)
    rw [show f0.page - 1 + 1 = f0.page by omega] at a1 a2
    obtain ⟨u, v, c1, c2, t1, t2⟩ := a2 (annotOf f0 p x y w h) (by rw [hpa]; exact hm) b b1
    refine ⟨b4, mediaText (docOf E cb f wf).p.pageSizes f0.page, annots, (docOf E cb f wf).pages.getD f0.page [], c1, c2, ?_, ?_, fun he => ?_⟩
    · rw [List.getD_eq_getElem?_getD, List.getElem?_map, List.getElem?_range (by omega)]
      exact a1
    · rw [t1]; exact attachText_annot f0 p x y w h u v c1 c2 _
    · obtain ⟨z1, z2⟩ := t2 he
      rw [z1, z2, b2, b3]
      exact ⟨stringFor_u16 _, stringFor_u16 _⟩
  · intro f0 p x y w h f1 q x' y' w' h' r1 g1 z1 r2 s1 g2 z2 s2 hnum
    have hm1 := mem _ _ (key f0 p x y w h r1 g1 r2)
    have hm2 := mem _ _ (key f1 q x' y' w' h' s1 g2 s2)
    obtain ⟨b, b1, _⟩ := hi.ptr p (files p) (List.mem_map.mpr ⟨_, hm1, rfl⟩) (hok2.ann _ hm1) z1
    obtain ⟨c, c1, _⟩ := hi.ptr q (files q) (List.mem_map.mpr ⟨_, hm2, rfl⟩) (hok2.ann _ hm2) z2
    beta_reduce at hnum
    rw [b1, c1] at hnum
    exact hi.ptrOnce p q _ _ b c (List.mem_map.mpr ⟨_, hm1, rfl⟩) (List.mem_map.mpr ⟨_, hm2, rfl⟩) (hok2.ann _ hm1) (hok2.ann _ hm2) z1 z2 b1 c1 hnum

end Verif.Props
