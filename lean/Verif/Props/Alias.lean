import Verif.Props.CatalogCases
import Verif.Props.AttachCases
import Verif.Proof.Apart
import Verif.Proof.Fonts
/-
C24: aliases.
-/
namespace Verif.Props
open Verif Verif.Model Verif.Spec Verif.Proof

/-- A call of `AliasNbPages` or `RegisterAlias`. -/
def setsAlias : Op → Bool
  | .aliasNbPages _ => true
  | .registerAlias _ _ => true
  | _ => false

/-- What `AliasNbPages` looks for. -/
def countName (a : Bytes) : Bytes := if a = [] then B "{nb}" else a

theorem alias_own (E : Ext) (cb : Cb) (f : Fpdf) (op : Op) (hs : staysOnPage op = true) (h : setsAlias op = false) :
    ((f.exec E cb op).m.aliasMap, (f.exec E cb op).m.aliasNbPagesStr) = (f.m.aliasMap, f.m.aliasNbPagesStr) :=
  foot_get (fun f => (f.m.aliasMap, f.m.aliasNbPagesStr)) E cb f op hs (fun g => by cases op <;> first | rfl | cases h)

theorem alias_data : ∀ {E : Ext} {o u s : Bytes} {sz : Size} {f : Fpdf}, Reach E (pagesWithout setsAlias) (Fpdf.new o u s sz) f → f.m.aliasMap = [] ∧ f.m.aliasNbPagesStr = [] := by
  intro E o u s sz f h
  have h1 := DataRel.reach (pagesWithout_open setsAlias)
    (DataRel.of (fun f => (f.m.aliasMap, f.m.aliasNbPagesStr)) (fun a b => b = a) (fun _ => rfl) (fun _ _ _ h1 h2 => h2.trans h1) (fun _ => rfl))
    (fun cb f op ho => alias_own E cb f op (helper_stays ho) (by cases op <;> first | rfl | (simp [helper] at ho))) (fun f cb op hg hs => alias_own E cb f op hs hg.2) h
  have h2 := new_get (fun f => (f.m.aliasMap, f.m.aliasNbPagesStr)) (fun _ => rfl) o u s sz
  have h3 := h1.2.trans h2
  exact ⟨congrArg (·.1) h3, congrArg (·.2) h3⟩

/-- The pages of the file, with the aliases there are after the call `f1`. -/
theorem alias_pages {E : Ext} {inflate : Bytes → Bytes} (hinf : ∀ b, inflate (E.deflate b) = b) {o u s : Bytes} {sz : Size} {f1 f : Fpdf} {cb : Cb} {wf : Bool}
    (h1 : Reach E pagesFirst (Fpdf.new o u s sz) f1) (hf : Reach E (pagesWithout setsAlias) f1 f) (hcb : CbReach E (pagesWithout setsAlias) cb) (hok : errOf E cb f wf = none)
    (hsize : (fileOf E cb f wf).length < 10 ^ 10) :
    ∃ version items root info kids rest, IsPdf (fileOf E cb f wf) [] version items root info ∧ PageTree items kids rest ∧ kids.length = (drawn E cb f).page ∧ ∀ i, i < kids.length →
      ∃ size annots, PageObject items (readIn E inflate (docOf E cb f wf)) (kids.getD i 0) size annots
        (Proof.subst E (if f1.m.aliasNbPagesStr ≠ [] then Model.insert f1.m.aliasNbPagesStr (decimal kids.length) f1.m.aliasMap else f1.m.aliasMap) ((drawn E cb f).pages.getD (i + 1) [])) := by
  obtain ⟨last, v, A, P, M, T, d, items, hp, hb⟩ := printed_pf (h1.trans (pagesWithout_pf hf)) (CbReach.pagesWithout hcb) hok
  have hpdf := hp.written.pdf hsize
  rw [hb] at hpdf
  obtain ⟨kids, rest, k1, k2, k3, k4⟩ := pages_of_file hinf hp
  have hk := kept_last (fun f => (f.m.aliasMap, f.m.aliasNbPagesStr)) setsAlias (fun _ => rfl) (fun op ho => by cases op <;> first | rfl | (simp [helper] at ho))
    (fun cb f op => alias_own E cb f op) hf hcb hp
  have e1 : last.m.aliasMap = f1.m.aliasMap := congrArg (·.1) hk
  have e2 : last.m.aliasNbPagesStr = f1.m.aliasNbPagesStr := congrArg (·.2) hk
  have hk2 : kids.length = last.page := k2.trans hp.fin.page
  have eam : (docOf E cb f wf).m.aliasMap = (if f1.m.aliasNbPagesStr ≠ [] then Model.insert f1.m.aliasNbPagesStr (decimal kids.length) f1.m.aliasMap else f1.m.aliasMap) := by
    rw [hp.fin.amap, (sAli_sub E last hp.state hp.written.att.fix).2]
    unfold aliasesOf
    rw [e1, e2, sprintf_d1, natDec_decimal, hk2]
  refine ⟨v, items, _, _, kids, rest, hpdf, k1, hk2.trans (congrArg (·.page) hp.eq), fun i hi => ?_⟩
  obtain ⟨size, annots, hpo⟩ := k4 i (by omega)
  rw [hp.subst (i + 1) (by omega) (by omega), eam, show last = drawn E cb f from hp.eq] at hpo
  exact ⟨size, annots, hpo⟩

/-- **C24** When neither `AliasNbPages` nor `RegisterAlias` is called, the contents of the pages are exactly what was drawn, whatever it is. -/
theorem C24_unset (E : Ext) (inflate : Bytes → Bytes) (hinf : ∀ b, inflate (E.deflate b) = b) (o u s : Bytes) (sz : Size) (f : Fpdf) (cb : Cb) (wf : Bool)
    (hf : Reach E (pagesWithout setsAlias) (Fpdf.new o u s sz) f) (hcb : CbReach E (pagesWithout setsAlias) cb) (hok : errOf E cb f wf = none)
    (hsize : (fileOf E cb f wf).length < 10 ^ 10) :
    ∃ version items root info kids rest, IsPdf (fileOf E cb f wf) [] version items root info ∧ PageTree items kids rest ∧ kids.length = (drawn E cb f).page ∧ ∀ i, i < kids.length →
      ∃ size annots, PageObject items (readIn E inflate (docOf E cb f wf)) (kids.getD i 0) size annots ((drawn E cb f).pages.getD (i + 1) []) := by
  obtain ⟨v, items, r, info, kids, rest, a1, a2, a3, a4⟩ := alias_pages hinf (Reach.refl _) hf hcb hok hsize
  have h1 := new_get (fun f => (f.m.aliasMap, f.m.aliasNbPagesStr)) (fun _ => rfl) o u s sz
  have e1 : (Fpdf.new o u s sz).m.aliasMap = [] := congrArg (·.1) h1
  have e2 : (Fpdf.new o u s sz).m.aliasNbPagesStr = [] := congrArg (·.2) h1
  refine ⟨v, items, r, info, kids, rest, a1, a2, a3, fun i hi => ?_⟩
  obtain ⟨size, annots, h⟩ := a4 i hi
  rw [e1, e2, if_neg (by simp), subst_nil] at h
  exact ⟨size, annots, h⟩

theorem decimal_ascii (n : Nat) : ∀ c ∈ decimal n, 48 ≤ c ∧ c ≤ 57 := by
  rw [← natDec_decimal]
  intro c hc
  have h := (natDec_spec n).2.1 c hc
  unfold isDigit at h
  simpa using h

/-- **C24** After `AliasNbPages(a)`, every occurrence of `a` in the contents of a page is replaced by the number of pages of the file: in text as it is, and then in text that is in
UTF-16. Nothing else of what was drawn is changed. (`a` is any text of the basic multilingual plane, `{nb}` if it is empty.) -/
theorem C24_pages (E : Ext) (inflate : Bytes → Bytes) (hinf : ∀ b, inflate (E.deflate b) = b) (o u s : Bytes) (sz : Size) (f0 f : Fpdf) (cb : Cb) (wf : Bool) (a : Bytes) (cps : List Nat)
    (hcps : ∀ c ∈ cps, c < 0x10000) (ha : countName a = utf8Enc cps) (h0 : Reach E (pagesWithout setsAlias) (Fpdf.new o u s sz) f0)
    (hf : Reach E (pagesWithout setsAlias) (f0.exec E {} (.aliasNbPages a)) f) (hcb : CbReach E (pagesWithout setsAlias) cb) (hok : errOf E cb f wf = none)
    (hsize : (fileOf E cb f wf).length < 10 ^ 10) :
    ∃ version items root info kids rest, IsPdf (fileOf E cb f wf) [] version items root info ∧ PageTree items kids rest ∧ kids.length = (drawn E cb f).page ∧ ∀ i, i < kids.length →
      ∃ size annots between contents, PageObject items (readIn E inflate (docOf E cb f wf)) (kids.getD i 0) size annots contents ∧
        Replaced (countName a) (decimal kids.length) ((drawn E cb f).pages.getD (i + 1) []) between ∧ Replaced (utf16Enc cps) (wide (decimal kids.length)) between contents := by
  have h1 := setup_step (pagesWithout_pf h0) (.aliasNbPages a) rfl (by simp)
  obtain ⟨v, items, r, info, kids, rest, a1, a2, a3, a4⟩ := alias_pages hinf h1 hf hcb hok hsize
  have e1 : (f0.exec E {} (.aliasNbPages a)).m.aliasMap = [] := (alias_data h0).1
  have e2 : (f0.exec E {} (.aliasNbPages a)).m.aliasNbPagesStr = countName a := rfl
  have hne : countName a ≠ [] := by
    unfold countName
    split
    · decide
    · assumption
  have hne2 : utf16Enc cps ≠ [] := by
    intro h
    cases cps with
    | nil => exact hne (ha.trans rfl)
    | cons c cps => simp [utf16Enc] at h
  refine ⟨v, items, r, info, kids, rest, a1, a2, a3, fun i hi => ?_⟩
  obtain ⟨size, annots, h⟩ := a4 i hi
  rw [e1, e2, if_pos hne] at h
  rw [show Model.insert (countName a) (decimal kids.length) [] = [(countName a, decimal kids.length)] from rfl, subst_single] at h
  refine ⟨size, annots, _, _, h, replaceAll_spec hne _ _ _ (Nat.le_refl _), ?_⟩
  rw [ha, u16_utf16 hcps, u16_wide (fun c hc => by
    have := (decimal_ascii kids.length c hc).2
    have := UInt8.le_iff_toNat_le.mp this
    rw [UInt8.lt_iff_toNat_lt]
    exact Nat.lt_of_le_of_lt this (by decide))]
  exact replaceAll_spec hne2 _ _ _ (Nat.le_refl _)

/-- ASCII text. -/
def ascii (s : Bytes) : List Nat := s.map (·.toNat)

theorem ascii_enc {s : Bytes} (h : ∀ c ∈ s, c < 128) : utf8Enc (ascii s) = s ∧ utf16Enc (ascii s) = wide s ∧ ∀ c ∈ ascii s, c < 0x10000 := by
  refine ⟨?_, ?_, ?_⟩
  · induction s with
    | nil => rfl
    | cons c s ih =>
      have h1 : c.toNat < 128 := UInt8.lt_iff_toNat_lt.mp (h c (by simp))
      have := ih (fun d hd => h d (by simp [hd]))
      show utf8Enc1 c.toNat ++ utf8Enc (ascii s) = _
      rw [this]
      unfold utf8Enc1
      rw [if_pos h1]
      simp
  · induction s with
    | nil => rfl
    | cons c s ih =>
      have h1 : c.toNat < 128 := UInt8.lt_iff_toNat_lt.mp (h c (by simp))
      have := ih (fun d hd => h d (by simp [hd]))
      show [UInt8.ofNat (c.toNat / 256), UInt8.ofNat (c.toNat % 256)] ++ utf16Enc (ascii s) = 0 :: c :: wide s
      rw [this, Nat.div_eq_of_lt (by omega), Nat.mod_eq_of_lt (by omega)]
      simp
  · intro c hc
    obtain ⟨d, _, rfl⟩ := List.mem_map.mp hc
    have := d.toNat_lt
    omega

/-- **C24** If the name given to `AliasNbPages` is in ASCII letters, without digits, then in the file it is nowhere left on a page: neither as it is, nor in UTF-16. -/
theorem C24_gone (E : Ext) (inflate : Bytes → Bytes) (hinf : ∀ b, inflate (E.deflate b) = b) (o u s : Bytes) (sz : Size) (f0 f : Fpdf) (cb : Cb) (wf : Bool) (a : Bytes)
    (ha : ∀ c ∈ countName a, c ≠ 0 ∧ c < 128 ∧ ¬ (48 ≤ c ∧ c ≤ 57)) (h0 : Reach E (pagesWithout setsAlias) (Fpdf.new o u s sz) f0)
    (hf : Reach E (pagesWithout setsAlias) (f0.exec E {} (.aliasNbPages a)) f) (hcb : CbReach E (pagesWithout setsAlias) cb) (hok : errOf E cb f wf = none)
    (hsize : (fileOf E cb f wf).length < 10 ^ 10) :
    ∃ version items root info kids rest, IsPdf (fileOf E cb f wf) [] version items root info ∧ PageTree items kids rest ∧ ∀ i, i < kids.length →
      ∃ size annots contents, PageObject items (readIn E inflate (docOf E cb f wf)) (kids.getD i 0) size annots contents ∧
        ∀ j, ¬ At (countName a) contents j ∧ ¬ At (wide (countName a)) contents j := by
  have hasc : ∀ c ∈ countName a, c < 128 := fun c hc => (ha c hc).2.1
  obtain ⟨q1, q2, q3⟩ := ascii_enc hasc
  obtain ⟨v, items, r, info, kids, rest, a1, a2, a3, a4⟩ := C24_pages E inflate hinf o u s sz f0 f cb wf a (ascii (countName a)) q3 q1.symm h0 hf hcb hok hsize
  refine ⟨v, items, r, info, kids, rest, a1, a2, fun i hi => ?_⟩
  obtain ⟨size, annots, between, contents, b1, b2, b3⟩ := a4 i hi
  rw [q2] at b3
  have hne : countName a ≠ [] := by
    unfold countName
    split
    · decide
    · assumption
  generalize countName a = k at *
  have hdg := decimal_ascii kids.length
  have hdne : decimal kids.length ≠ [] := by rw [← natDec_decimal]; exact (natDec_spec _).1
  generalize decimal kids.length = r at *
  obtain ⟨y, hy⟩ : ∃ y, k[k.length - 1]? = some y := ⟨_, List.getElem?_eq_getElem (by have := List.length_pos_iff.mpr hne; omega)⟩
  obtain ⟨c, hc⟩ : ∃ c, r[r.length - 1]? = some c := ⟨_, List.getElem?_eq_getElem (by have := List.length_pos_iff.mpr hdne; omega)⟩
  have my := List.mem_of_getElem? hy
  have mc := List.mem_of_getElem? hc
  have yr : y ∉ r := fun h => (ha y my).2.2 (hdg y h)
  have ck : c ∉ k := fun h => (ha c h).2.2 (hdg c mc)
  have c0 : c ≠ 0 := fun h => by have := (hdg c mc).1; rw [h] at this; exact absurd this (by decide)
  have yw : y ∉ wide r := fun h => by
    rcases mem_wide h with h | h
    · exact (ha y my).1 h
    · exact yr h
  have cw : c ∉ wide k := fun h => by
    rcases mem_wide h with h | h
    · exact c0 h
    · exact ck h
  have s1 := replaced_gone hne (apart_last hy yr hc ck) ((drawn E cb f).pages.getD (i + 1) [])
  rw [← replaced_eq hne b2] at s1
  have s2 := replaced_gone (wide_ne hne) (apart_last (wide_last hy) yw (wide_last hc) cw) between
  have s3 := replaced_absent hne (wide_ne hne) (apart_last hy yw (wide_last hc) ck) between s1
  rw [← replaced_eq (wide_ne hne) b3] at s2 s3
  exact ⟨size, annots, contents, b1, fun j => ⟨s3 j, s2 j⟩⟩

/-- `RegisterAlias` for each of the pairs. -/
def registerAll (E : Ext) (f : Fpdf) (as : List (Bytes × Bytes)) : Fpdf := as.foldl (fun f x => f.exec E {} (.registerAlias x.1 x.2)) f

theorem registerAll_reach {E : Ext} (as : List (Bytes × Bytes)) : ∀ {f0 f : Fpdf}, Reach E pagesFirst f0 f → Reach E pagesFirst f0 (registerAll E f as) := by
  induction as with
  | nil => intro f0 f h; exact h
  | cons x as ih => intro f0 f h; exact ih (setup_step h (.registerAlias x.1 x.2) rfl (by simp))

theorem insert_append {α β : Type} [DecidableEq α] (k : α) (v : β) (l : List (α × β)) (h : k ∉ l.map (·.1)) : Model.insert k v l = l ++ [(k, v)] := by
  induction l with
  | nil => rfl
  | cons x l ih =>
    obtain ⟨a, b⟩ := x
    simp only [List.map_cons, List.mem_cons, not_or] at h
    rw [Model.insert, if_neg (fun e => h.1 e.symm), ih h.2]
    rfl

theorem registerAll_map {E : Ext} (as : List (Bytes × Bytes)) : ∀ f : Fpdf, (f.m.aliasMap.map (·.1) ++ as.map (·.1)).Nodup →
    (registerAll E f as).m.aliasMap = f.m.aliasMap ++ as ∧ (registerAll E f as).m.aliasNbPagesStr = f.m.aliasNbPagesStr := by
  induction as with
  | nil => intro f _; exact ⟨(List.append_nil _).symm, rfl⟩
  | cons x as ih =>
    intro f h
    have hx : x.1 ∉ f.m.aliasMap.map (·.1) := fun hm => by
      rw [List.nodup_append] at h
      exact h.2.2 _ hm _ (by simp) rfl
    have e : (f.exec E {} (.registerAlias x.1 x.2)).m.aliasMap = f.m.aliasMap ++ [x] := insert_append x.1 x.2 f.m.aliasMap hx
    have h2 := ih (f.exec E {} (.registerAlias x.1 x.2)) (by rw [e]; simpa using h)
    rw [e, List.append_assoc] at h2
    exact h2

theorem lookup_mem {α β : Type} [DecidableEq α] (l : List (α × β)) (h : (l.map (·.1)).Nodup) : ∀ x ∈ l, lookup x.1 l = some x.2 := by
  induction l with
  | nil => intro x hx; cases hx
  | cons y l ih =>
    intro x hx
    obtain ⟨a, b⟩ := y
    rw [List.map_cons, List.nodup_cons] at h
    rcases List.mem_cons.mp hx with rfl | hx
    · simp [lookup]
    · have : a ≠ x.1 := fun e => h.1 (by rw [e]; exact List.mem_map.mpr ⟨x, hx, rfl⟩)
      have := ih h.2 x hx
      simp_all [lookup]

theorem subst_order {E : Ext} {x y : UInt8} {as : List (Bytes × Bytes)} (hxy : x ≠ y) (hnd : (as.map (·.1)).Nodup) (hb : ∀ p ∈ as, Bracketed x y p.1)
    (hr : ∀ p ∈ as, Harmless x y (as.map (·.1)) p.2) (b : Bytes) :
    ∃ between, ReplacedAll as b between ∧ ReplacedAll (as.map fun p => (wide p.1, wide p.2)) between (Proof.subst E as b) := by
  have hm : AsMap as as := ⟨List.Perm.refl _, lookup_mem as hnd⟩
  unfold Proof.subst
  refine ⟨_, ?_, fold_order hm hnd true wide (fun p hp => ⟨fun _ => ⟨u16_wide (bracketed_ne (hb p hp)).2.2.2, u16_wide (fun c hc => ((hr p hp).2.2.2 c hc).2)⟩, fun h => by cases h⟩)
    (fun p hp => wide_ne (bracketed_ne (hb p hp)).1) ?_ ?_ _ (E.ord_perm 2 _) _⟩
  · have h := fold_order hm hnd false id (fun p hp => ⟨fun h => (by cases h), fun _ => ⟨rfl, rfl⟩⟩) (fun p hp => (bracketed_ne (hb p hp)).1)
      (fun p hp q hq hne => apart_marked (bracketed_marked hxy (hb p hp)) (bracketed_marked hxy (hb q hq)) hne)
      (fun p hp q hq => apart_raw hxy (hb p hp) (List.mem_map.mpr ⟨p, hp, rfl⟩) (hr q hq)) _ (E.ord_perm 1 (keys as)) b
    rw [show (as.map fun p => (id p.1, id p.2)) = as by simp] at h
    exact h
  · intro p hp q hq hne
    obtain ⟨_, b2, b3, _⟩ := bracketed_ne (hb p hp)
    exact apart_marked ((bracketed_marked hxy (hb p hp)).wide b2 b3) ((bracketed_marked hxy (hb q hq)).wide b2 b3) (fun h => hne (wide_inj h))
  · intro p hp q hq
    exact apart_wide hxy (hb p hp) (List.mem_map.mpr ⟨p, hp, rfl⟩) (hr q hq)

/-- **C24** Several aliases: names in brackets, like `{title}`, and replacements that have neither bracket and have some character that is not in the names. However Go goes through
its map of aliases, the contents of every page is what was drawn with the aliases replaced in the order in which they were registered, then again in UTF-16. (The number of pages
comes last, if `AliasNbPages` was called with such a name.) -/
theorem C24_order (E : Ext) (inflate : Bytes → Bytes) (hinf : ∀ b, inflate (E.deflate b) = b) (o u s : Bytes) (sz : Size) (f0 f : Fpdf) (cb : Cb) (wf : Bool)
    (x y : UInt8) (as : List (Bytes × Bytes)) (hxy : x ≠ y) (hnd : (as.map (·.1)).Nodup) (hb : ∀ p ∈ as, Bracketed x y p.1) (hr : ∀ p ∈ as, Harmless x y (as.map (·.1)) p.2)
    (h0 : Reach E (pagesWithout setsAlias) (Fpdf.new o u s sz) f0) (hf : Reach E (pagesWithout setsAlias) (registerAll E f0 as) f) (hcb : CbReach E (pagesWithout setsAlias) cb)
    (hok : errOf E cb f wf = none) (hsize : (fileOf E cb f wf).length < 10 ^ 10) :
    ∃ version items root info kids rest, IsPdf (fileOf E cb f wf) [] version items root info ∧ PageTree items kids rest ∧ kids.length = (drawn E cb f).page ∧ ∀ i, i < kids.length →
      ∃ size annots between contents, PageObject items (readIn E inflate (docOf E cb f wf)) (kids.getD i 0) size annots contents ∧
        ReplacedAll as ((drawn E cb f).pages.getD (i + 1) []) between ∧ ReplacedAll (as.map fun p => (wide p.1, wide p.2)) between contents := by
  have h1 := registerAll_reach as (pagesWithout_pf h0)
  obtain ⟨v, items, r, info, kids, rest, a1, a2, a3, a4⟩ := alias_pages hinf h1 hf hcb hok hsize
  obtain ⟨m1, m2⟩ := alias_data h0
  obtain ⟨e1, e2⟩ := registerAll_map (E := E) as f0 (by rw [m1]; simpa using hnd)
  rw [m1, List.nil_append] at e1
  rw [m2] at e2
  refine ⟨v, items, r, info, kids, rest, a1, a2, a3, fun i hi => ?_⟩
  obtain ⟨size, annots, h⟩ := a4 i hi
  rw [e1, e2, if_neg (by simp)] at h
  obtain ⟨between, s1, s2⟩ := subst_order (E := E) hxy hnd hb hr ((drawn E cb f).pages.getD (i + 1) [])
  exact ⟨size, annots, between, _, h, s1, s2⟩

/-- **C24** The same with `AliasNbPages(a)`: the number of pages is replaced last. -/
theorem C24_order_count (E : Ext) (inflate : Bytes → Bytes) (hinf : ∀ b, inflate (E.deflate b) = b) (o u s : Bytes) (sz : Size) (f0 f : Fpdf) (cb : Cb) (wf : Bool)
    (x y : UInt8) (as : List (Bytes × Bytes)) (a : Bytes) (hxy : x ≠ y) (hnd : (as.map (·.1) ++ [countName a]).Nodup) (hb : ∀ p ∈ as, Bracketed x y p.1) (hba : Bracketed x y (countName a))
    (hr : ∀ p ∈ as, Harmless x y (as.map (·.1) ++ [countName a]) p.2) (hra : ∀ n, Harmless x y (as.map (·.1) ++ [countName a]) (decimal n))
    (h0 : Reach E (pagesWithout setsAlias) (Fpdf.new o u s sz) f0) (hf : Reach E (pagesWithout setsAlias) ((registerAll E f0 as).exec E {} (.aliasNbPages a)) f)
    (hcb : CbReach E (pagesWithout setsAlias) cb) (hok : errOf E cb f wf = none) (hsize : (fileOf E cb f wf).length < 10 ^ 10) :
    ∃ version items root info kids rest, IsPdf (fileOf E cb f wf) [] version items root info ∧ PageTree items kids rest ∧ kids.length = (drawn E cb f).page ∧ ∀ i, i < kids.length →
      ∃ size annots between contents, PageObject items (readIn E inflate (docOf E cb f wf)) (kids.getD i 0) size annots contents ∧
        ReplacedAll (as ++ [(countName a, decimal kids.length)]) ((drawn E cb f).pages.getD (i + 1) []) between ∧
        ReplacedAll ((as ++ [(countName a, decimal kids.length)]).map fun p => (wide p.1, wide p.2)) between contents := by
  have h1 := setup_step (registerAll_reach as (pagesWithout_pf h0)) (.aliasNbPages a) rfl (by simp)
  obtain ⟨v, items, r, info, kids, rest, a1, a2, a3, a4⟩ := alias_pages hinf h1 hf hcb hok hsize
  obtain ⟨m1, m2⟩ := alias_data h0
  obtain ⟨e1, e2⟩ := registerAll_map (E := E) as f0 (by rw [m1]; exact (List.nodup_append.mp hnd).1)
  rw [m1, List.nil_append] at e1
  have e3 : ((registerAll E f0 as).exec E {} (.aliasNbPages a)).m.aliasMap = as := e1
  have e4 : ((registerAll E f0 as).exec E {} (.aliasNbPages a)).m.aliasNbPagesStr = countName a := rfl
  refine ⟨v, items, r, info, kids, rest, a1, a2, a3, fun i hi => ?_⟩
  obtain ⟨size, annots, h⟩ := a4 i hi
  have hni : countName a ∉ as.map (·.1) := fun hm => (List.nodup_append.mp hnd).2.2 _ hm _ (by simp) rfl
  rw [e3, e4, if_pos (bracketed_ne hba).1, insert_append _ _ _ hni] at h
  have em : (as ++ [(countName a, decimal kids.length)]).map (·.1) = as.map (·.1) ++ [countName a] := by simp
  obtain ⟨between, s1, s2⟩ := subst_order (E := E) (as := as ++ [(countName a, decimal kids.length)]) hxy (by rw [em]; exact hnd)
    (fun p hp => by
      rcases List.mem_append.mp hp with hp | hp
      · exact hb p hp
      · rw [List.mem_singleton.mp hp]; exact hba)
    (fun p hp => by
      rw [em]
      rcases List.mem_append.mp hp with hp | hp
      · exact hr p hp
      · rw [List.mem_singleton.mp hp]; exact hra _) ((drawn E cb f).pages.getD (i + 1) [])
  exact ⟨size, annots, between, _, h, s1, s2⟩

/-! ### Cases -/

/-- Two pages with the number of pages and a title. -/
def counted (E : Ext) : List Op := [.addPage, .setFont (B "helvetica") [] 12, .text 10 10 (B "1 of {nb}: {title}"), .addPage, .text 10 10 (B "2 of {nb}")]
def countedDoc : Fpdf := after (registerAll oneFont (Fpdf.new [] [] [] {}) [(B "{title}", B "A Book")] |>.exec oneFont {} (.aliasNbPages [])) (counted oneFont) oneFont

example : Reach oneFont (pagesWithout setsAlias) (registerAll oneFont (Fpdf.new [] [] [] {}) [(B "{title}", B "A Book")] |>.exec oneFont {} (.aliasNbPages [])) countedDoc :=
  reach_after (pwB_ok _) _ _ _ (Reach.refl _) (by decide +kernel)
example : Bracketed 0x7B 0x7D (B "{title}") ∧ Bracketed 0x7B 0x7D (countName []) :=
  ⟨⟨B "title", by decide, by decide, by decide, by decide⟩, ⟨B "nb", by decide, by decide, by decide, by decide⟩⟩
example : Harmless 0x7B 0x7D ([B "{title}"] ++ [countName []]) (B "A Book") := ⟨by decide, by decide, ⟨0x41, by decide, by decide⟩, by decide⟩
example (n : Nat) : Harmless 0x7B 0x7D ([B "{title}"] ++ [countName []]) (decimal n) := by
  have h := decimal_ascii n
  have hne : decimal n ≠ [] := by rw [← natDec_decimal]; exact (natDec_spec _).1
  obtain ⟨c, hc⟩ := List.exists_mem_of_ne_nil _ hne
  refine ⟨fun hm => absurd (h _ hm).2 (by decide), fun hm => absurd (h _ hm).2 (by decide), ⟨c, hc, fun k hk hm => ?_⟩, fun d hd => ?_⟩
  · have h1 := h c hc
    have key : ∀ k ∈ [B "{title}"] ++ [countName []], ∀ d ∈ k, ¬ (48 ≤ d ∧ d ≤ 57) := by decide
    exact key k hk c hm h1
  · have := h d hd
    have key : ∀ d : UInt8, 48 ≤ d ∧ d ≤ 57 → d ≠ 0 ∧ d < 128 := forall_byte (by decide +kernel)
    exact key d this
example : ∀ c ∈ countName [], c ≠ 0 ∧ c < 128 ∧ ¬ (48 ≤ c ∧ c ≤ 57) := by decide
example : errOf oneFont {} countedDoc false = none ∧ (fileOf oneFont {} countedDoc false).length < 10 ^ 10 ∧ contains (B "(1 of 2: A Book)") (fileOf oneFont {} countedDoc false) = true ∧
    contains (B "(2 of 2)") (fileOf oneFont {} countedDoc false) = true ∧ contains (B "{nb}") (fileOf oneFont {} countedDoc false) = false := by
  refine ⟨?_, ?_, ?_, ?_, ?_⟩ <;> decide +kernel

/-- The same aliases, gone through in the other order. -/
def otherWay : Ext := { oneFont with ord := fun _ l => l.reverse, ord_perm := fun _ l => List.reverse_perm l }

/-- **C24** refuted for aliases in general: with `a` for `b` and `b` for `c` the file depends on the order in which Go goes through its map. -/
theorem C24_order_false : contains (B "(c)") (fileOf oneFont {} (after (Fpdf.new [] [] [] {}) [.registerAlias (B "a") (B "b"), .registerAlias (B "b") (B "c"), .addPage,
      .setFont (B "helvetica") [] 12, .text 10 10 (B "a")] oneFont) false) = true ∧
    contains (B "(c)") (fileOf otherWay {} (after (Fpdf.new [] [] [] {}) [.registerAlias (B "a") (B "b"), .registerAlias (B "b") (B "c"), .addPage,
      .setFont (B "helvetica") [] 12, .text 10 10 (B "a")] otherWay) false) = false ∧
    contains (B "(b)") (fileOf otherWay {} (after (Fpdf.new [] [] [] {}) [.registerAlias (B "a") (B "b"), .registerAlias (B "b") (B "c"), .addPage,
      .setFont (B "helvetica") [] 12, .text 10 10 (B "a")] otherWay) false) = true := by
  refine ⟨?_, ?_, ?_⟩ <;> decide +kernel

/-- **C24** refuted for names with parentheses or backslashes: `Text` escapes them, and they are not found. -/
theorem C24_escaped_false : contains (B "(\\(n\\))") (fileOf oneFont {} (after (Fpdf.new [] [] [] {}) [.aliasNbPages (B "(n)"), .addPage,
      .setFont (B "helvetica") [] 12, .text 10 10 (B "(n)")] oneFont) false) = true := by
  decide +kernel

end Verif.Props
