import Verif.Proof.Final
import Verif.Proof.Turn
/-
From programs to files.
-/
namespace Verif.Proof
open Verif Verif.Model Verif.Spec

/-- `Output` that returns no error. -/
theorem output_ok {E : Ext} {cb : Cb} {f : Fpdf} {wf : Bool} (hs : f.state < 3) (h : (f.output E cb wf).2.2 = none) :
    (f.close E cb).err = none ∧ (f.output E cb wf).1 = (f.close E cb).buffer ∧ (f.output E cb wf).2.1 = { f.close E cb with buffer := [] } ∧ wf = false := by
  unfold Fpdf.output at h ⊢
  by_cases he : f.err = none
  · rw [if_neg (by simp [he])] at h ⊢
    dsimp only at h ⊢
    rw [if_pos hs] at h ⊢
    cases wf with
    | true =>
      exfalso
      simp [Fpdf.assignErr] at h
    | false => exact ⟨h, rfl, rfl, rfl⟩
  · rw [if_pos he] at h
    exact absurd h he

/-- The call-backs given to `Output` are sequences of calls of the same kind. -/
structure CbReach (E : Ext) (G : Guard) (cb : Cb) : Prop where
  header : ∀ h, cb.header = some h → ∀ s, G.cb s → Reach E G s (h s)
  footer : ∀ h, cb.footer = some h → ∀ b s, G.cb s → Reach E G s (h b s)
  accept : ∀ s, Reach E G s (cb.accept s).2

theorem CbReach.rel {E : Ext} {G : Guard} {cb : Cb} {R : Fpdf → Fpdf → Prop} (h : CbReach E G cb) (hr : ∀ f g, Reach E G f g → R f g) : Cb.Rel G.cb R cb :=
  ⟨fun a ha s hs => hr _ _ (h.header a ha s hs), fun a ha b s hs => hr _ _ (h.footer a ha b s hs), fun s => hr _ _ (h.accept s)⟩

/-- A document created by `New` and not closed yet. -/
structure Fresh (f : Fpdf) : Prop where
  n : f.n = 2
  offs : f.offsets = []
  state : f.state < 3
  page : f.page < f.pages.length
  rc : f.m.protect.rc4n = 0

theorem new_fresh (o u s : Bytes) (sz : Size) : Fresh (Fpdf.new o u s sz) := by
  obtain ⟨h1, h2, h3, h4, h5, _, _, h8⟩ := new_open o u s sz
  exact ⟨h1, h2, by omega, by rw [h4, h5]; decide, h8⟩

theorem Fresh.next {f g : Fpdf} (h : Fresh f) (o : Open f g) : Fresh g :=
  ⟨o.n.trans h.n, o.offs.trans h.offs, o.state h.state, (o.page h.page).1, o.rc.trans h.rc⟩

/-- What is needed to know about the call-backs when a document is closed. -/
structure CloseOk (E : Ext) (cb : Cb) (f : Fpdf) : Prop where
  add : f.err = none → Open f (f.addPage E cb) ∧ (f.addPage E cb).page ≠ 0
  foot : ∀ f1 : Fpdf, f1.page ≠ 0 → Open f1 (f1.runFooter cb true)

theorem CloseOk.of_open {E : Ext} {cb : Cb} (hcb : Cb.Rel (fun _ => True) Open cb) (f : Fpdf) (hf : Fresh f) : CloseOk E cb f := by
  have K := Open.pageRel (E := E) hcb
  refine ⟨fun he => ⟨K.addPage f, ?_⟩, fun f1 _ => K.runFooter true f1⟩
  unfold Fpdf.addPage
  rw [if_neg (by simp [he])]
  exact addPageFormat_page hcb f hf.page he _ _

theorem CloseOk.of_pf {E : Ext} {cb : Cb} (hcb' : Cb.Rel pagesFirst.cb PF cb) (f : Fpdf) (hf : Fresh f) : CloseOk E cb f := by
  have hcb : Cb.Rel (fun s => s.page ≠ 0) OB cb := ⟨fun h hh s hs => (hcb'.header h hh s hs).1, fun h hh b s hs => (hcb'.footer h hh b s hs).1, fun s => (hcb'.accept s).1⟩
  have K := OB.turnRel (E := E) hcb
  refine ⟨fun he => ⟨(K.addPage f).1, ?_⟩, fun f1 hp => (OB.runFooter hcb true f1 hp).1⟩
  unfold Fpdf.addPage
  rw [if_neg (by simp [he])]
  have h1 := K.turn f f.p.defOrientation f.p.defPageSize he
  exact (((K.tail f f.p.defOrientation f.p.defPageSize he).1.page (h1.1.1.page hf.page).1).2.1) h1.2

/-- The document `last` as it is when the file is written, and the file. -/
theorem close_written {E : Ext} {cb : Cb} (f : Fpdf) (hcb : CloseOk E cb f) (hf : Fresh f) (hc : (f.close E cb).err = none) :
    ∃ f1 last : Fpdf, f1 = (if f.page = 0 then f.addPage E cb else f) ∧ f1.err = none ∧ f1.page ≠ 0 ∧ last = (f1.runFooter cb true).endpage ∧ last.err = none ∧
      last.state = 1 ∧ last.page ≠ 0 ∧ Open f last ∧ (∃ v A P M T d items, Written E last v A P M T d items (f.close E cb).buffer) ∧ Final E last (f.close E cb) := by
  obtain ⟨_, _, _, f1, h1, h2, h3, _, h5, h6, h7, h8⟩ := close_enddoc' f hcb.add hcb.foot hf.state hf.page hc
  rw [h5] at hc ⊢
  refine ⟨f1, _, h1, h2, h3, rfl, h6, rfl, h8, h7, ?_, ?_⟩
  · refine enddoc_written E _ rfl (h7.n.trans hf.n) (h7.offs.trans hf.offs) ?_ h8 h6 hc
    rw [h7.rc, hf.rc]; omega
  · exact enddoc_final E _ rfl h6 hc

/-- Decryption of the streams of a document. -/
def decryptOf (E : Ext) (g : Fpdf) (n : Nat) (b : Bytes) : Bytes := if g.m.protect.encrypted then decryptIn E.md5 g.m.protect.encryptionKey n b else b

/-- The pages of the file. -/
theorem Written.pageTree {E : Ext} {f : Fpdf} {v : Nat} {A P M T : List Body} {d : Bytes} {items : List (Nat × Body)} {pdf : Bytes}
    (h : Written E f v A P M T d items pdf) :
    PageTree items ((List.range f.page).map fun i => 3 + A.length + 2 * i) (sprintf "/MediaBox [0 0 %.2f %.2f]" [.f (defDim f).1, .f (defDim f).2] ++ B "\n>>\n") := by
  unfold PageTree
  rw [h.eq]
  unfold allItems rootBody
  simp only [List.mem_append, List.mem_singleton]
  refine .inl (.inl (.inl (.inr ?_)))
  rw [List.length_map, List.length_range]
  simp only [natDec_decimal, List.append_assoc]

theorem strip_ne {p s q t : Bytes} (h : (strip p q).isNone) (hl : p.length ≤ q.length) (hs : s = q ++ t) : strip p s = none := by
  subst hs
  induction p generalizing q with
  | nil => cases q <;> simp [strip] at h
  | cons c p ih =>
    cases q with
    | nil => simp at hl
    | cons x q =>
      simp only [List.cons_append, strip] at h ⊢
      split
      · next hcx => rw [if_pos hcx] at h; exact ih h (by simpa using hl)
      · rfl

theorem content_read {E : Ext} {g : Fpdf} {inflate : Bytes → Bytes} (hinf : ∀ b, inflate (E.deflate b) = b) {n : Nat} {b b' : Bytes}
    (h : Holds E.md5 g.m.protect n (contentData E g.m.compress b) b') : readStream inflate (decryptOf E g) n (contentDict E g.m.compress b) b' = b := by
  have hd : decryptOf E g n b' = contentData E g.m.compress b := by
    unfold Holds at h
    unfold decryptOf
    split at h
    · next he => rw [if_pos he]; exact h
    · next he => rw [if_neg he]; exact h
  unfold readStream
  rw [hd]
  unfold contentData contentDict
  by_cases hc : g.m.compress = true
  · rw [if_pos hc, if_pos hc]
    rw [show B "<</Filter /FlateDecode /Length " ++ natDec (E.deflate b).length ++ B ">>\n" = B "<</Filter /FlateDecode " ++ (B "/Length " ++ natDec (E.deflate b).length ++ B ">>\n") by
      simp only [← List.append_assoc]; rfl]
    rw [strip_append]
    simp [hinf]
  · rw [if_neg hc, if_neg hc]
    rw [show strip (B "<</Filter /FlateDecode ") (B "<</Length " ++ natDec b.length ++ B ">>\n") = none by
      rw [List.append_assoc]; rfl]
    simp

theorem PageObjs.of_final {E : Ext} {L : LinkSt} {f a b : Fpdf} (ha : Final E f a) (hb : Final E f b) {hPt : Rat} {n j : Nat} {o1 o2 : Body} (h : PageObjs E L a hPt n j o1 o2) :
    PageObjs E L b hPt n j o1 o2 := by
  have e1 := hb.p.trans ha.p.symm
  have e2 := hb.k.trans ha.k.symm
  have e3 := hb.links.trans ha.links.symm
  have e4 := hb.pageLinks.trans ha.pageLinks.symm
  have e5 := hb.compress.trans ha.compress.symm
  have e6 := hb.encrypted.trans ha.encrypted.symm
  have e7 := hb.key.trans ha.key.symm
  have e8 := hb.pages.trans ha.pages.symm
  obtain ⟨d, q1, q2⟩ := h.dict
  obtain ⟨d', q3, q4⟩ := h.content
  obtain ⟨m, an, gr, q5, q6, q7⟩ := q2.shape
  unfold LinksFor at q7
  rw [← e6, ← e1, ← e2, ← e3, ← e4] at q7
  rw [← e1] at q5
  rw [← e1, ← e2, ← e3, ← e4] at q6
  rw [← e5, ← e8] at q3
  unfold Holds at q4
  rw [← e5, ← e6, ← e7, ← e8] at q4
  exact ⟨⟨d, q1, ⟨m, an, gr, q5, q6, q7⟩⟩, ⟨d', q3, q4⟩⟩

/-- Page `i + 1` of the file. -/
theorem Written.pageObject' {E : Ext} {f g : Fpdf} {v : Nat} {A P M T : List Body} {d : Bytes} {items : List (Nat × Body)} {pdf : Bytes}
    (h : Written E f v A P M T d items pdf) (hs : f.state = 1) (hg : Final E f g) {inflate : Bytes → Bytes} (hinf : ∀ b, inflate (E.deflate b) = b) (i : Nat) (hi : i < f.page) :
    ∃ annots, PageObject items (readStream inflate (decryptOf E g)) (3 + A.length + 2 * i) (mediaText g.p.pageSizes (i + 1)) annots (g.pages.getD (i + 1) []) ∧
      (∀ pl ∈ g.l.pageLinks.getD (i + 1) [], pl.link ≠ 0 → ∀ page y, g.l.links[pl.link]? = some (page, y) →
        ∃ u v, annots = B "/Annots [" ++ u ++ linkText pl page (pageHt g.p.pageSizes (defDim g).2 page - y * g.k) ++ v) ∧ AnnotsFor (sAli E f).l g.m.protect.encrypted (i + 1) annots := by
  obtain ⟨o1, o2, e1, e2, ho⟩ := h.pages i hi
  have ho := ho.of_final (ali_final E f hs h.att.fix) hg
  rw [← defDim_congr hg.p hg.k, show 1 + i = i + 1 by omega] at ho
  obtain ⟨⟨b, rfl, hb⟩, ⟨b', rfl, hb'⟩⟩ := ho
  obtain ⟨mid, annots, group, hsh, hann⟩ := hb.shape
  have m1 := num_mem (k := 3 + A.length) e1
  have m2 := num_mem (k := 3 + A.length) e2
  refine ⟨annots, ⟨mid, group, 3 + A.length + 2 * i + 1, _, b', ?_, ?_, content_read hinf hb'⟩, hann.1, hann.2.1⟩
  · rw [← natDec_decimal, ← hsh, h.eq]
    unfold allItems
    simp only [List.mem_append]
    exact .inl (.inl (.inl (.inl (.inr m1))))
  · rw [h.eq]
    unfold allItems
    simp only [List.mem_append]
    exact .inl (.inl (.inl (.inl (.inr m2))))

/-- The dictionary of page `i + 1` of the file, exactly. -/
theorem Written.pageExact {E : Ext} {f g : Fpdf} {v : Nat} {A P M T : List Body} {d : Bytes} {items : List (Nat × Body)} {pdf : Bytes}
    (h : Written E f v A P M T d items pdf) (hs : f.state = 1) (hg : Final E f g) (i : Nat) (hi : i < f.page) :
    ∃ annots group, (3 + A.length + 2 * i, Body.plain (B "<</Type /Page\n/Parent 1 0 R\n" ++ mediaText g.p.pageSizes (i + 1) ++
        boxesText ((lookup (i + 1) g.p.pageBoxes).getD []) (E.ord (1000 + (i + 1)) (keys ((lookup (i + 1) g.p.pageBoxes).getD []))) ++ B "/Resources 2 0 R\n" ++ annots ++ group ++
        (B "/Contents " ++ natDec (3 + A.length + 2 * i + 1) ++ B " 0 R>>\n"))) ∈ items ∧ LinksFor (sAli E f).l g (defDim g).2 (i + 1) annots := by
  obtain ⟨o1, o2, e1, e2, ho⟩ := h.pages i hi
  have ho := ho.of_final (ali_final E f hs h.att.fix) hg
  rw [← defDim_congr hg.p hg.k, show 1 + i = i + 1 by omega] at ho
  obtain ⟨⟨b, rfl, hb⟩, _⟩ := ho
  obtain ⟨mid, annots, group, hsh, hann⟩ := hb.shape
  have m1 := num_mem (k := 3 + A.length) e1
  refine ⟨annots, group, ?_, hann.2.2.1⟩
  rw [← hann.2.2.2, ← hsh, h.eq]
  unfold allItems
  simp only [List.mem_append]
  exact .inl (.inl (.inl (.inl (.inr m1))))

@[inherit_doc Written.pageObject']
theorem Written.pageObject {E : Ext} {f g : Fpdf} {v : Nat} {A P M T : List Body} {d : Bytes} {items : List (Nat × Body)} {pdf : Bytes}
    (h : Written E f v A P M T d items pdf) (hs : f.state = 1) (hg : Final E f g) {inflate : Bytes → Bytes} (hinf : ∀ b, inflate (E.deflate b) = b) (i : Nat) (hi : i < f.page) :
    ∃ annots, PageObject items (readStream inflate (decryptOf E g)) (3 + A.length + 2 * i) (mediaText g.p.pageSizes (i + 1)) annots (g.pages.getD (i + 1) []) ∧
      ∀ pl ∈ g.l.pageLinks.getD (i + 1) [], pl.link ≠ 0 → ∀ page y, g.l.links[pl.link]? = some (page, y) →
        ∃ u v, annots = B "/Annots [" ++ u ++ linkText pl page (pageHt g.p.pageSizes (defDim g).2 page - y * g.k) ++ v := by
  obtain ⟨annots, h1, h2, _⟩ := h.pageObject' hs hg hinf i hi
  exact ⟨annots, h1, h2⟩

end Verif.Proof
