import Verif.Proof.Alias
import Verif.Proof.Keep
/-
What is known in the stages of writing a document.
-/
namespace Verif.Proof
open Verif Verif.Model Verif.Spec

variable {E : Ext} {f : Fpdf} {v : Nat} {A P M T : List Body} {d : Bytes} {items : List (Nat × Body)} {pdf : Bytes}

/-- Object `i` of the part after the resource dictionary. -/
theorem Written.mem_tail (h : Written E f v A P M T d items pdf) {i : Nat} {b : Body} (hb : T[i]? = some b) : (3 + A.length + P.length + M.length + i, b) ∈ items := by
  rw [h.eq]
  unfold allItems
  exact List.mem_append_right _ (num_mem hb)

/-- Object `i` of the part between the page tree and the resource dictionary. -/
theorem Written.mem_mid (h : Written E f v A P M T d items pdf) {i : Nat} {b : Body} (hb : M[i]? = some b) : (3 + A.length + P.length + i, b) ∈ items := by
  rw [h.eq]
  unfold allItems
  simp only [List.mem_append]
  exact .inl (.inl (.inr (num_mem hb)))

/-- Object `i` of the attachments. -/
theorem Written.mem_att (h : Written E f v A P M T d items pdf) {i : Nat} {b : Body} (hb : A[i]? = some b) : (3 + i, b) ∈ items := by
  rw [h.eq]
  unfold allItems
  simp only [List.mem_append]
  exact .inl (.inl (.inl (.inl (.inl (num_mem hb)))))

/-- The resource dictionary. -/
theorem Written.mem_dict (h : Written E f v A P M T d items pdf) : (2, Body.plain (B "<<\n" ++ d ++ B ">>\n")) ∈ items := by
  rw [h.eq]
  unfold allItems
  simp only [List.mem_append, List.mem_singleton]
  exact .inl (.inr trivial)

theorem rootObj_n (f : Fpdf) (hs : f.state = 1) (nb : Nat) (kids : List Nat) (a b : Rat) : (f.putPagesRoot nb kids a b).n = f.n :=
  (putPagesRoot_out f hs nb kids a b).n
theorem resObj_n (E : Ext) (f : Fpdf) (hs : f.state = 1) : (f.putResourceObj E).n = f.n := by
  obtain ⟨_, _, h, _⟩ := putResourceObj_out E f hs
  exact h.n

/-- States, object counts and unchanged parts. -/
theorem Written.stages (h : Written E f v A P M T d items pdf) (hs : f.state = 1) (hn : f.n = 2) :
    (sAtt E f).state = 1 ∧ (sAli E f).state = 1 ∧ (sRoot E f).state = 1 ∧ (sRes E f).state = 1 ∧ (sDict E f).state = 1 ∧
    (sRoot E f).n = 2 + A.length + P.length ∧ (sDict E f).n = 2 + A.length + P.length + M.length ∧
    Final E f (sAli E f) ∧ Final E f (sRoot E f) ∧ Final E f (sRes E f) ∧ Final E f (sDict E f) := by
  obtain ⟨k1, k2, k3, k4, k5, k6, k7⟩ := putheader_keeps f hs
  obtain ⟨l1, l2, l3, l4, l5, l6⟩ := sAli_keeps E f
  have s1 := h.att.state.trans k1
  have s2 := l1.trans s1
  have s3 := h.loop.state.trans s2
  have s4 := sRoot_state E f s3
  have hM := h.mid
  have s5 := hM.state.trans s4
  have s6 := sDict_state E f s5
  have n1 : (sRoot E f).n = 2 + A.length + P.length := by
    have : (sRoot E f).n = (sLoop E f).1.n := by unfold sRoot; exact rootObj_n _ s3 _ _ _ _
    rw [this, h.loop.n, l5, h.att.n, k5, hn]
  have n2 : (sDict E f).n = (sRes E f).n := by unfold sDict; exact resObj_n E _ s5
  have f0 := ali_final E f hs h.att.fix
  have f1 := f0.of_wfix h.loop.fix
  have f2 : Final E f (sRoot E f) := f1.of_wfix (by unfold sRoot; exact rootObj_wfix _ s3 _ _ _ _)
  have f3 := f2.of_wfix hM.fix
  have f4 : Final E f (sDict E f) := f3.of_wfix (by unfold sDict; exact resObj_wfix E _ s5)
  exact ⟨s1, s2, s4, s5, s6, n1, by rw [n2, hM.n, n1], f0, f2, f3, f4⟩

theorem Holds.read {E : Ext} {f : Fpdf} {g : Fpdf} (he : g.m.protect.encrypted = f.m.protect.encrypted) (hk : g.m.protect.encryptionKey = f.m.protect.encryptionKey)
    {n : Nat} {b c : Bytes} (h : Holds E.md5 f.m.protect n b c) : decryptOf E g n c = b := by
  unfold Holds at h
  unfold decryptOf
  rw [he, hk]
  split at h
  · next hh => rw [if_pos hh]; exact h
  · next hh => rw [if_neg hh]; exact h

/-- The outline in the file. -/
theorem Written.outline (h : Written E f v A P M T d items pdf) (hs : f.state = 1) (hn : f.n = 2) {g : Fpdf} (hg : Final E f g) (hne : g.l.outlines ≠ []) :
    ∃ base, base = (sEnc E f).n + 1 ∧ OutlineRoot items base g.l.outlines.length 0 (outlineLinks (g.l.outlines.map (·.level))).lastTop ∧
      ∀ i o, g.l.outlines[i]? = some o → OutlineItem items (decryptOf E g) base i (linksOf ((outlineLinks (g.l.outlines.map (·.level))).links.getD i {})) o.text
        (1 + 2 * o.p) (fmtF 2 ((g.p.h - o.y) * g.k)) := by
  obtain ⟨_, _, _, _, _, _, n1, _, _, _, f1⟩ := h.stages hs hn
  obtain ⟨Js, Enc, Bk, Xmp, i, c, ht⟩ := h.tail
  have f2 := (f1.of_wfix ht.js.fix).of_wfix ht.enc.fix
  have n2 : (sEnc E f).n = 2 + A.length + P.length + M.length + Js.length + Enc.length := by rw [ht.enc.n, ht.js.n, n1]
  have eo : (sEnc E f).l.outlines = g.l.outlines := f2.outlines.trans hg.outlines.symm
  have ep : (sEnc E f).p = g.p := f2.p.trans hg.p.symm
  have ek : (sEnc E f).k = g.k := f2.k.trans hg.k.symm
  obtain ⟨objs, hB, hl, ho⟩ := ht.bkObjs.some (by rw [eo]; exact hne)
  rw [eo] at hB hl ho
  have hT : ∀ j b, Bk[j]? = some b → T[Js.length + Enc.length + j]? = some b := by
    intro j b hj
    have hlt : j < Bk.length := by
      by_contra hc
      rw [List.getElem?_eq_none (by omega)] at hj
      exact absurd hj (by simp)
    rw [ht.eq, List.getElem?_append_left (by simp only [List.length_append]; omega), List.getElem?_append_right (by omega),
      List.getElem?_append_right (by omega), List.getElem?_append_left (by omega)]
    rw [show Js.length + Enc.length + j - Js.length - Enc.length = j by omega]
    exact hj
  refine ⟨(sEnc E f).n + 1, rfl, ?_, ?_⟩
  · have := h.mem_tail (hT objs.length _ (by rw [hB, List.getElem?_append_right (by omega)]; simp; rfl))
    unfold OutlineRoot
    rw [show 3 + A.length + P.length + M.length + (Js.length + Enc.length + objs.length) = (sEnc E f).n + 1 + g.l.outlines.length by rw [n2, hl]; omega] at this
    exact this
  · intro j o hj
    obtain ⟨c', h1, h2⟩ := ho j o hj
    have hlt : j < objs.length := by
      by_contra hc
      rw [List.getElem?_eq_none (by omega)] at h1
      exact absurd h1 (by simp)
    have := h.mem_tail (hT j _ (by rw [hB, List.getElem?_append_left hlt]; exact h1))
    rw [show 3 + A.length + P.length + M.length + (Js.length + Enc.length + j) = (sEnc E f).n + 1 + j by rw [n2]; omega, ep, ek] at this
    refine ⟨_, c', this, fun rest => readLit_textstringPlain c' rest, ?_⟩
    exact Holds.read (hg.encrypted.trans f2.encrypted.symm) (hg.key.trans f2.key.symm) h2

end Verif.Proof
