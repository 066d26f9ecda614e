import Verif.Proof.Parts
import Verif.Spec.Catalog
import Verif.Spec.Security
import Verif.Props.Outline
import Verif.Props.Protect
import Verif.Props.Utf16
import Verif.Props.Errors
import Verif.Model.Getters
import Mathlib.Tactic.ByContra
/-
C56-C61: the information dictionary, the display mode, layers, scripts, metadata and the encryption dictionary in the file.
-/
namespace Verif.Props
open Verif Verif.Model Verif.Spec Verif.Proof

/-- Programs as in `C07_wellformed` without the calls in `bad`. -/
def pagesWithout (bad : Op → Bool) : Guard := { op := fun f cb op => pagesFirst.op f cb op ∧ bad op = false, cb := pagesFirst.cb }

theorem pagesWithout_open (bad : Op → Bool) : OpenGuard (pagesWithout bad) := ⟨fun _ _ _ h => ⟨h.1.1, h.1.2.1⟩, fun _ h => h⟩
theorem pagesWithout_pf {bad : Op → Bool} {E : Ext} {f g : Fpdf} (h : Reach E (pagesWithout bad) f g) : Reach E pagesFirst f g :=
  Reach.mono (G := pagesWithout bad) (fun _ _ _ h => h.1) (fun _ h => h) h
theorem CbReach.pagesWithout {bad : Op → Bool} {E : Ext} {cb : Cb} (h : CbReach E (pagesWithout bad) cb) : CbReach E pagesFirst cb :=
  ⟨fun a ha s hs => pagesWithout_pf (h.header a ha s hs), fun a ha b s hs => pagesWithout_pf (h.footer a ha b s hs), fun s => pagesWithout_pf (h.accept s)⟩

/-- What no call outside `bad` touches is the same when the document is written. -/
theorem kept_last {α : Type} (q : Fpdf → α) (bad : Op → Bool) (hq : ∀ f, q (bits f) = q f) (hh : ∀ op, helper op = true → bad op = false) {E : Ext}
    (hown : ∀ cb f op, staysOnPage op = true → bad op = false → q (f.exec E cb op) = q f) {cb : Cb} {f0 f g last : Fpdf} {file : Bytes} {v : Nat} {A P M T : List Body} {d : Bytes}
    {items : List (Nat × Body)} (hf : Reach E (pagesWithout bad) f0 f) (hcb : CbReach E (pagesWithout bad) cb) (hp : Printed E cb f g last file v A P M T d items) : q last = q f0 :=
  last_data (pagesWithout_open bad) (DataRel.of q (fun a b => b = a) (fun _ => rfl) (fun _ _ _ h1 h2 => h2.trans h1) hq) (fun cb f op ho => hown cb f op (helper_stays ho) (hh op ho))
    (fun f cb op hg hs => hown cb f op hs hg.2) hf hcb hp.eq hp.page1

theorem setup_step {E : Ext} {f0 f : Fpdf} (h : Reach E pagesFirst f0 f) (op : Op) (hop : setup op = true) (h1 : op ≠ .close ∧ (∀ b, op ≠ .output b) ∧ op ≠ .clearError) :
    Reach E pagesFirst f0 (f.exec E {} op) :=
  Reach.step _ _ h ⟨h1.1, h1.2.1, h1.2.2, fun _ => hop⟩ (by simp) (by simp) (fun s => Reach.refl s)

theorem pf_latch {E : Ext} {f g : Fpdf} (h : Reach E pagesFirst f g) (he : g.err = none) : f.err = none := none_of (reach_pf h).1.2.latch he

theorem ok_err {E : Ext} {cb : Cb} {f : Fpdf} {wf : Bool} (hok : errOf E cb f wf = none) : f.err = none := by
  by_contra he
  have := output_of_err E cb f wf he
  unfold errOf at hok
  rw [this] at hok
  exact he hok

/-! ### C56: the information dictionary -/

/-- The key of a document property. -/
def infoKey : MetaKey → Bytes
  | .title => B "/Title"
  | .subject => B "/Subject"
  | .author => B "/Author"
  | .keywords => B "/Keywords"
  | .creator => B "/Creator"
  | .producer => B "/Producer"

/-- The value of a document property. -/
def metaVal (key : MetaKey) (f : Fpdf) : Bytes :=
  match key with
  | .title => f.m.title
  | .subject => f.m.subject
  | .author => f.m.author
  | .keywords => f.m.keywords
  | .creator => f.m.creator
  | .producer => f.m.producer

/-- A call of the setter of a document property: `SetTitle`, `SetSubject`, `SetAuthor`, `SetKeywords`, `SetCreator` or `SetProducer`. -/
def setsMeta (key : MetaKey) : Op → Bool
  | .setMeta k _ _ => k = key
  | _ => false

theorem metaVal_set (key : MetaKey) (f : Fpdf) (v : Bytes) (utf8 : Bool) : metaVal key (f.setMeta key v utf8) = if utf8 then u16 v true else v := by
  unfold Fpdf.setMeta
  cases utf8 <;> cases key <;> rfl

theorem metaVal_other (key k : MetaKey) (hk : k ≠ key) (f : Fpdf) (v : Bytes) (utf8 : Bool) : metaVal key (f.setMeta k v utf8) = metaVal key f := by
  unfold Fpdf.setMeta
  cases utf8 <;> cases key <;> cases k <;> first | rfl | exact absurd rfl hk

theorem meta_own (key : MetaKey) (E : Ext) (cb : Cb) (f : Fpdf) (op : Op) (hs : staysOnPage op = true) (hb : setsMeta key op = false) : metaVal key (f.exec E cb op) = metaVal key f := by
  by_cases hu : ∃ k v b, op = .setMeta k v b
  · obtain ⟨k, v, b, rfl⟩ := hu
    exact metaVal_other key k (by simpa [setsMeta] using hb) f v b
  · exact foot_get (metaVal key) E cb f op hs (fun g => by
      cases op <;> first | (cases key <;> rfl) | exact absurd ⟨_, _, _, rfl⟩ hu)

/-- The entries of the information dictionary. -/
def infoPairs (m : MetaSt) (creation modified : Bytes) : List (Bytes × Bytes) :=
  ([(B "/Producer", m.producer), (B "/Title", m.title), (B "/Subject", m.subject), (B "/Author", m.author), (B "/Keywords", m.keywords),
    (B "/Creator", m.creator)].filter fun e => e.2 ≠ []) ++ [(B "/CreationDate", B "D:" ++ creation), (B "/ModDate", B "D:" ++ modified)]

theorem infoEntries_pairs (m : MetaSt) (a b : Bytes) : infoEntries m a b = (infoPairs m a b).map fun e => (e.1 ++ B " ", e.2) := by
  unfold infoEntries infoPairs
  rw [List.map_append]
  congr 1
  rw [show ([(B "/Producer ", m.producer), (B "/Title ", m.title), (B "/Subject ", m.subject), (B "/Author ", m.author), (B "/Keywords ", m.keywords), (B "/Creator ", m.creator)] : List (Bytes × Bytes)) =
    [(B "/Producer", m.producer), (B "/Title", m.title), (B "/Subject", m.subject), (B "/Author", m.author), (B "/Keywords", m.keywords), (B "/Creator", m.creator)].map (fun e => (e.1 ++ B " ", e.2)) from rfl,
    List.filter_map]
  rfl

theorem infoPairs_mem (m : MetaSt) (a b : Bytes) (key : MetaKey) (x : Bytes) : (infoKey key, x) ∈ infoPairs m a b ↔ x = metaVal key { m := m } ∧ x ≠ [] := by
  unfold infoPairs
  simp only [List.mem_append, List.mem_filter, List.mem_cons, Prod.mk.injEq, List.not_mem_nil, or_false, decide_eq_true_eq]
  cases key
  all_goals
    simp only [infoKey, metaVal]
    constructor
    · rintro (⟨h, h2⟩ | h)
      · refine ⟨?_, h2⟩
        rcases h with h | h | h | h | h | h <;> first | exact h.2 | exact absurd h.1 (by decide)
      · rcases h with h | h <;> exact absurd h.1 (by decide)
    · rintro ⟨rfl, h2⟩
      exact .inl ⟨by simp, h2⟩

theorem infoPairs_nodup (m : MetaSt) (a b : Bytes) : ((infoPairs m a b).map Prod.fst).Nodup := by
  have : ((infoPairs m a b).map Prod.fst).Sublist [B "/Producer", B "/Title", B "/Subject", B "/Author", B "/Keywords", B "/Creator", B "/CreationDate", B "/ModDate"] := by
    unfold infoPairs
    rw [List.map_append]
    refine List.Sublist.append (l₂ := [B "/Producer", B "/Title", B "/Subject", B "/Author", B "/Keywords", B "/Creator"]) ?_ (List.Sublist.refl _)
    exact (List.filter_sublist).map Prod.fst
  exact this.nodup (by decide)

theorem stringDict_of {items : List (Nat × Body)} {n : Nat} (es : List (Bytes × Bytes)) (cs : List Bytes) (hl : cs.length = es.length)
    (h : (n, Body.plain (B "<<\n" ++ infoLines (es.map fun e => (e.1 ++ B " ", e.2)) cs ++ B ">>\n")) ∈ items) : StringDict items n ((es.map Prod.fst).zip cs) := by
  refine ⟨cs.map textstringPlain, by simp [hl], ?_, ?_⟩
  · intro i e l he hll rest
    rw [List.getElem?_zip_eq_some] at he
    rw [List.getElem?_map, he.2] at hll
    cases hll
    exact readLit_textstringPlain e.2 rest
  · have e : infoLines (es.map fun e => (e.1 ++ B " ", e.2)) cs = (((es.map Prod.fst).zip cs).zip (cs.map textstringPlain)).flatMap fun x => x.1.1 ++ B " " ++ x.2 ++ [10] := by
      clear h
      unfold infoLines
      induction es generalizing cs with
      | nil => simp
      | cons a es ih =>
        cases cs with
        | nil => simp at hl
        | cons c cs =>
          simp only [List.map_cons, List.zip_cons_cons, List.flatMap_cons]
          rw [ih cs (by simpa using hl)]
    rw [← e]; exact h

theorem stringFor_u16 (v : Bytes) : StringFor v true (u16 v true) := by
  unfold StringFor
  rw [if_pos rfl]
  intro cps h hv
  obtain ⟨b, h1, h2⟩ := C02_utf16_bmp cps true (fun cp hc => ⟨(h cp hc).2, (h cp hc).1⟩)
  refine ⟨b, ?_, h2⟩
  unfold u16
  rw [hv, h1]
  rfl

theorem stringFor_set (v : Bytes) (utf8 : Bool) : StringFor v utf8 (if utf8 then u16 v true else v) := by
  cases utf8 with
  | true => exact stringFor_u16 v
  | false => unfold StringFor; simp

/-- The information dictionary of a document that is not protected. -/
theorem info_plain {E : Ext} {cb : Cb} {f g last : Fpdf} {file : Bytes} {v : Nat} {A P M T : List Body} {d : Bytes} {items : List (Nat × Body)} (hn : last.n = 2)
    (hp : Printed E cb f g last file v A P M T d items) (hu : g.m.protect.encrypted = false) :
    StringDict items (2 + A.length + P.length + M.length + T.length - 1) (infoPairs last.m E.creation E.modified) := by
  obtain ⟨cs, h1, h2, h3, _⟩ := (hp.written.ending hp.state hn).info
  rw [infoEntries_pairs] at h1 h2 h3
  have h3 := h3 (hp.fin.encrypted.symm.trans hu)
  have := stringDict_of _ cs (by simpa using h1) h2
  rw [h3] at this
  have e : ((infoPairs last.m E.creation E.modified).map Prod.fst).zip (((infoPairs last.m E.creation E.modified).map fun e => (e.1 ++ B " ", e.2)).map Prod.snd) = infoPairs last.m E.creation E.modified := by
    generalize infoPairs last.m E.creation E.modified = l
    clear * -
    induction l with
    | nil => rfl
    | cons a l ih => simp only [List.map_cons, List.zip_cons_cons, ih]
  rw [e] at this
  exact this

/-- **C56** The string last given to `SetTitle` (or `SetSubject`, `SetAuthor`, `SetKeywords`, `SetCreator`, `SetProducer`) is what the information dictionary of the file
says, in UTF-16 if it was given as UTF-8; there is no entry if it is empty. For documents that are not protected. -/
theorem C56_file (E : Ext) (o u s : Bytes) (sz : Size) (f0 f : Fpdf) (cb : Cb) (wf : Bool) (key : MetaKey) (text : Bytes) (utf8 : Bool)
    (h0 : Reach E pagesFirst (Fpdf.new o u s sz) f0) (hf : Reach E (pagesWithout (setsMeta key)) (f0.exec E {} (.setMeta key text utf8)) f)
    (hcb : CbReach E (pagesWithout (setsMeta key)) cb) (hok : errOf E cb f wf = none) (hsize : (fileOf E cb f wf).length < 10 ^ 10)
    (hu : (docOf E cb f wf).m.protect.encrypted = false) :
    ∃ version items root info es str, IsPdf (fileOf E cb f wf) [] version items root info ∧ StringDict items info es ∧ (es.map Prod.fst).Nodup ∧
      StringFor text utf8 str ∧ ∀ x, (infoKey key, x) ∈ es ↔ x = str ∧ str ≠ [] := by
  have h1 : Reach E pagesFirst (Fpdf.new o u s sz) (f0.exec E {} (.setMeta key text utf8)) := setup_step h0 _ rfl (by simp)
  have h2 := h1.trans (pagesWithout_pf hf)
  obtain ⟨last, v, A, P, M, T, d, items, hp, hb⟩ := printed_pf h2 (CbReach.pagesWithout hcb) hok
  have hpdf := hp.written.pdf hsize
  rw [hb] at hpdf
  have hn : last.n = 2 := hp.op.n.trans (pf_fresh h2).n
  refine ⟨v, items, _, _, _, _, hpdf, info_plain hn hp hu, infoPairs_nodup _ _ _, stringFor_set text utf8, fun x => ?_⟩
  rw [infoPairs_mem]
  have hk : metaVal key last = metaVal key (f0.exec E {} (.setMeta key text utf8)) :=
    kept_last (metaVal key) (setsMeta key) (fun f => by cases key <;> rfl) (fun op ho => by cases op <;> first | rfl | (simp [helper] at ho)) (fun cb f op => meta_own key E cb f op) hf hcb hp
  have hk2 : metaVal key { m := last.m } = if utf8 then u16 text true else text := by
    rw [← metaVal_set key f0 text utf8]
    refine Eq.trans ?_ hk
    cases key <;> rfl
  rw [hk2]
  constructor
  · rintro ⟨rfl, h⟩; exact ⟨rfl, h⟩
  · rintro ⟨rfl, h⟩; exact ⟨rfl, h⟩

theorem assignErr_some (f : Fpdf) (e : String) : (f.assignErr e).err ≠ none := by simp [Fpdf.assignErr]

/-- The producer that `New` puts down. -/
def Produced (g : Fpdf) : Prop := g.err = none → g.m.producer = u16 (B "FPDF 1.7") true

theorem new_producer (o u s : Bytes) (sz : Size) : Produced (Fpdf.new o u s sz) := by
  unfold Fpdf.new
  dsimp only
  split
  · exact fun h => absurd h (assignErr_some _ _)
  · split
    · exact fun h => absurd h (assignErr_some _ _)
    · split
      · exact fun h => absurd h (assignErr_some _ _)
      · generalize Fpdf.setDisplayMode _ _ _ = g
        unfold Produced
        generalize u16 _ _ = p
        intro _
        rfl

/-- **C56** A property that was never set has no entry, except the producer. -/
theorem C56_default (E : Ext) (o u s : Bytes) (sz : Size) (f : Fpdf) (cb : Cb) (wf : Bool) (key : MetaKey)
    (hf : Reach E (pagesWithout (setsMeta key)) (Fpdf.new o u s sz) f)
    (hcb : CbReach E (pagesWithout (setsMeta key)) cb) (hok : errOf E cb f wf = none) (hsize : (fileOf E cb f wf).length < 10 ^ 10)
    (hu : (docOf E cb f wf).m.protect.encrypted = false) :
    ∃ version items root info es producer, IsPdf (fileOf E cb f wf) [] version items root info ∧ StringDict items info es ∧ (es.map Prod.fst).Nodup ∧
      StringFor (B "FPDF 1.7") true producer ∧ ∀ x, (infoKey key, x) ∈ es ↔ key = .producer ∧ x = producer := by
  have h2 := pagesWithout_pf hf
  obtain ⟨last, v, A, P, M, T, d, items, hp, hb⟩ := printed_pf h2 (CbReach.pagesWithout hcb) hok
  have hpdf := hp.written.pdf hsize
  rw [hb] at hpdf
  have hn : last.n = 2 := hp.op.n.trans (pf_fresh h2).n
  refine ⟨v, items, _, _, _, _, hpdf, info_plain hn hp hu, infoPairs_nodup _ _ _, stringFor_u16 _, fun x => ?_⟩
  rw [infoPairs_mem]
  have hk : metaVal key last = metaVal key (Fpdf.new o u s sz) :=
    kept_last (metaVal key) (setsMeta key) (fun f => by cases key <;> rfl) (fun op ho => by cases op <;> first | rfl | (simp [helper] at ho)) (fun cb f op => meta_own key E cb f op) hf hcb hp
  have hk2 : metaVal key { m := last.m } = metaVal key (Fpdf.new o u s sz) := by
    rw [← hk]
    cases key <;> rfl
  rw [hk2]
  have hne : (Fpdf.new o u s sz).err = none := pf_latch h2 (ok_err hok)
  have hprod := new_producer o u s sz hne
  cases key
  case producer =>
    simp only [metaVal, hprod, true_and]
    exact ⟨fun h => h.1, fun h => ⟨h, by rw [h]; decide +kernel⟩⟩
  all_goals
    simp only [metaVal, reduceCtorEq, false_and, iff_false, not_and, not_not]
    intro h
    first
      | exact h.trans (new_get (fun f => f.m.title) (fun _ => rfl) o u s sz)
      | exact h.trans (new_get (fun f => f.m.subject) (fun _ => rfl) o u s sz)
      | exact h.trans (new_get (fun f => f.m.author) (fun _ => rfl) o u s sz)
      | exact h.trans (new_get (fun f => f.m.keywords) (fun _ => rfl) o u s sz)
      | exact h.trans (new_get (fun f => f.m.creator) (fun _ => rfl) o u s sz)

/-- **C56** In a protected document the producer, which comes first, is what a reader gets after decryption … -/
theorem C56_protected_producer (E : Ext) (o u s : Bytes) (sz : Size) (f0 f : Fpdf) (cb : Cb) (wf : Bool) (text : Bytes) (utf8 : Bool) (htext : text ≠ [])
    (hutf8 : utf8 = true → ∃ cps : List Nat, (∀ cp ∈ cps, isScalar cp ∧ cp < 0x10000) ∧ text = utf8Enc cps)
    (h0 : Reach E pagesFirst (Fpdf.new o u s sz) f0) (hf : Reach E (pagesWithout (setsMeta .producer)) (f0.exec E {} (.setMeta .producer text utf8)) f)
    (hcb : CbReach E (pagesWithout (setsMeta .producer)) cb) (hok : errOf E cb f wf = none) (hsize : (fileOf E cb f wf).length < 10 ^ 10) :
    ∃ version items root info es x, IsPdf (fileOf E cb f wf) [] version items root info ∧ StringDict items info ((B "/Producer", x) :: es) ∧
      StringFor text utf8 (decryptOf E (docOf E cb f wf) info x) := by
  have h1 : Reach E pagesFirst (Fpdf.new o u s sz) (f0.exec E {} (.setMeta .producer text utf8)) := setup_step h0 _ rfl (by simp)
  have h2 := h1.trans (pagesWithout_pf hf)
  obtain ⟨last, v, A, P, M, T, d, items, hp, hb⟩ := printed_pf h2 (CbReach.pagesWithout hcb) hok
  have hpdf := hp.written.pdf hsize
  rw [hb] at hpdf
  have hn : last.n = 2 := hp.op.n.trans (pf_fresh h2).n
  have hk : metaVal .producer last = metaVal .producer (f0.exec E {} (.setMeta .producer text utf8)) :=
    kept_last (metaVal .producer) (setsMeta .producer) (fun f => rfl) (fun op ho => by cases op <;> first | rfl | (simp [helper] at ho)) (fun cb f op => meta_own .producer E cb f op) hf hcb hp
  have hk2 : last.m.producer = if utf8 then u16 text true else text := hk.trans (metaVal_set .producer f0 text utf8)
  have hne : last.m.producer ≠ [] := by
    rw [hk2]
    split
    · next hu =>
      obtain ⟨cps, c1, c2⟩ := hutf8 hu
      have := stringFor_u16 text
      unfold StringFor at this
      rw [if_pos rfl] at this
      obtain ⟨b, hb, _⟩ := this cps c1 c2
      rw [hb]; simp
    · exact htext
  obtain ⟨cs, i1, i2, _, i4⟩ := (hp.written.ending hp.state hn).info
  rw [infoEntries_pairs] at i1 i2 i4
  have hpairs : ∃ r, infoPairs last.m E.creation E.modified = (B "/Producer", last.m.producer) :: r := by
    unfold infoPairs
    rw [List.filter_cons_of_pos (by simpa using hne)]
    exact ⟨_, rfl⟩
  obtain ⟨r, hr⟩ := hpairs
  have i3 := stringDict_of _ cs (by simpa using i1) i2
  rw [hr] at i1 i3 i4
  cases cs with
  | nil => simp at i1
  | cons c cs =>
    have i4 := i4 _ c rfl rfl
    have hd := Holds.read (g := docOf E cb f wf) hp.fin.encrypted hp.fin.key i4
    refine ⟨v, items, _, _, _, c, hpdf, i3, ?_⟩
    rw [hd]
    show StringFor text utf8 last.m.producer
    rw [hk2]
    exact stringFor_set text utf8

/-! ### The catalog -/

theorem openEntry_zoom (z : Bytes) : zoomText z = openEntry 3 (viewOf z) := by
  unfold zoomText viewOf
  by_cases h1 : z = B "fullpage"
  · rw [if_pos h1, if_pos h1]; decide
  rw [if_neg h1, if_neg h1]
  by_cases h2 : z = B "fullwidth"
  · rw [if_pos h2, if_pos h2]; decide
  rw [if_neg h2, if_neg h2]
  by_cases h3 : z = B "real"
  · rw [if_pos h3, if_pos h3]; decide
  · rw [if_neg h3, if_neg h3]; rfl

theorem layoutName_eq (m : Bytes) : layoutName m = layoutOf m := by
  unfold layoutName layoutOf
  by_cases h1 : m = B "single"
  · rw [if_pos (.inl h1), if_pos h1]
  by_cases h2 : m = B "continuous"
  · subst h2; decide
  by_cases h3 : m = B "two"
  · subst h3; decide
  rw [if_neg h1, if_neg h2, if_neg h3]
  simp only [h1, h2, h3, false_or, List.mem_cons, List.not_mem_nil, or_false]
  by_cases h4 : m = B "SinglePage"
  · subst h4; decide
  by_cases h5 : m = B "OneColumn"
  · subst h5; decide
  by_cases h6 : m = B "TwoColumnLeft"
  · subst h6; decide
  by_cases h7 : m = B "TwoColumnRight"
  · subst h7; decide
  simp only [h4, h5, h6, h7, if_false, false_or]

theorem layoutText_eq (m : Bytes) : layoutText m = layoutEntry (layoutOf m) := by
  unfold layoutText
  rw [layoutName_eq]
  cases layoutOf m <;> rfl

theorem refs_eq (l : List Nat) : refs l = refList l := by
  unfold refs refList
  congr 1
  funext n
  rw [natDec_decimal]

/-- The layers of a file: the catalog lists the objects `base`, `base + 1`, …, and those that are hidden. -/
structure LayersIn (items : List (Nat × Body)) (decrypt : Nat → Bytes → Bytes) (dict entry : Bytes) (base : Nat) (list : List Layer) (pane : Bool) : Prop where
  empty : list = [] → entry = []
  listed : list ≠ [] → ∃ off, entry = layersEntry ((List.range list.length).map (base + ·)) off ++ (if pane then B "/PageMode /UseOC\n" else []) ∧
    (∀ i x, list[i]? = some x → ((base + i) ∈ off ↔ x.visible = false)) ∧ off ⊆ (List.range list.length).map (base + ·)
  each : ∀ i x, list[i]? = some x → Names dict (B "Properties") (B "OC" ++ decimal i) (base + i) ∧ LayerObject items decrypt (base + i) x.name

theorem holds_final {E : Ext} {f g s : Fpdf} (F : Final E f s) (hg : Final E f g) {n : Nat} {b c : Bytes} (h : Holds E.md5 s.m.protect n b c) : decryptOf E g n c = b :=
  Holds.read (hg.encrypted.trans F.encrypted.symm) (hg.key.trans F.key.symm) h

set_option linter.constructorNameAsVariable false in
theorem written_layer {E : Ext} {f g : Fpdf} {v : Nat} {A P M T : List Body} {d : Bytes} {items : List (Nat × Body)} {pdf : Bytes} (h : Written E f v A P M T d items pdf)
    (hs : f.state = 1) (hn : f.n = 2) (hg : Final E f g) {i : Nat} {x : Layer} (hx : f.layer.list[i]? = some x) :
    ∃ k, k = (sRoot E f).n + 1 + i ∧ Names d (B "Properties") (B "OC" ++ decimal i) k ∧ LayerObject items (decryptOf E g) k x.name := by
  obtain ⟨k, c, h1, h2, h3, hk⟩ := h.oc hs hn hx
  have F2 := (h.stages hs hn).2.2.2.2.2.2.2.2.1
  clear h
  generalize sRoot E f = s at *
  rw [natDec_decimal] at h1
  refine ⟨k, hk, h1, textstringPlain c, c, h2, readLit_textstringPlain c, ?_⟩
  rw [holds_final F2 hg h3]
  exact stringFor_u16 x.name

set_option linter.constructorNameAsVariable false in
/-- The catalog of a document. -/
theorem written_catalog {E : Ext} {f g : Fpdf} {v : Nat} {A P M T : List Body} {d : Bytes} {items : List (Nat × Body)} {pdf : Bytes} (h : Written E f v A P M T d items pdf)
    (hs : f.state = 1) (hn : f.n = 2) (hg : Final E f g) :
    ∃ c base, IsCatalog items (2 + A.length + P.length + M.length + T.length) c ∧ c.openAction = openEntry 3 (viewOf f.m.zoomMode) ∧ c.layout = layoutEntry (layoutOf f.m.layoutMode) ∧
      (f.l.outlines = [] → c.outlines = []) ∧ (f.l.outlines ≠ [] → c.outlines = outlinesEntry ((sEnc E f).n + 1 + f.l.outlines.length)) ∧
      LayersIn items (decryptOf E g) d c.layers base f.layer.list f.layer.openLayerPane ∧ c.script = scriptText (sInf E f) ∧ c.files = (sInf E f).embeddedFiles := by
  have he := h.ending hs hn
  have hcat := he.cat
  have hsame := he.same
  have hlay := he.layers
  have hbk := he.bk
  clear he
  generalize sInf E f = s at *
  refine ⟨⟨openEntry 3 (viewOf f.m.zoomMode), layoutEntry (layoutOf f.m.layoutMode), outlinesText (s), layersText (s), scriptText (s), (s).embeddedFiles⟩,
    (sRoot E f).n + 1, ?_, rfl, rfl, ?_, ?_, ?_, rfl, rfl⟩
  · have := hcat
    unfold IsCatalog
    unfold catalogText at this
    rw [openEntry_zoom, layoutText_eq, hsame.zoom, hsame.layout] at this
    simp only [List.append_assoc] at this ⊢
    exact this
  · intro ho
    show outlinesText (s) = []
    unfold outlinesText
    rw [hsame.outlines, ho]
    rfl
  · intro ho
    show outlinesText (s) = _
    unfold outlinesText
    rw [hsame.outlines, if_pos (List.length_pos_of_ne_nil ho), hbk ho]
    unfold outlinesEntry
    rw [natDec_decimal]
  · have hl : (sRoot E f).layer.list = f.layer.list := (h.root hs).lay
    have e1 := h.res.lay
    have e2 := h.res.layN
    rw [hl] at e1 e2
    obtain ⟨q1, q2⟩ := layers_numbered (n := (sRoot E f).n + 1) e2 (fun i x hx => by obtain ⟨c, h1, _⟩ := e1 i x hx; exact h1)
    refine ⟨?_, ?_, ?_⟩
    · intro hn
      show layersText (s) = []
      unfold layersText
      rw [hlay, if_neg (by rw [e2, hn]; simp)]
    · intro hne
      show ∃ off, layersText (s) = _ ∧ _
      unfold layersText
      rw [hlay, if_pos (by rw [e2]; exact List.length_pos_of_ne_nil hne), q1, hsame.pane, refs_eq, refs_eq]
      refine ⟨_, ?_, q2, ?_⟩
      · unfold layersEntry
        simp only [List.append_assoc]
      · rw [← q1]
        exact fun y hy => by
          obtain ⟨x, hx, rfl⟩ := List.mem_map.1 hy
          exact List.mem_map.2 ⟨x, (List.mem_filter.1 hx).1, rfl⟩
    · intro i x hx
      obtain ⟨k, hk, h1, h2⟩ := written_layer h hs hn hg hx
      rw [← hk]
      exact ⟨h1, h2⟩

/-- The catalog of every document written without error. -/
theorem catalog_pf {E : Ext} {o u s : Bytes} {sz : Size} {f : Fpdf} {cb : Cb} {wf : Bool} (hf : Reach E pagesFirst (Fpdf.new o u s sz) f) (hcb : CbReach E pagesFirst cb)
    (hok : errOf E cb f wf = none) (hsize : (fileOf E cb f wf).length < 10 ^ 10) :
    ∃ last v A P M T d items c base, Printed E cb f (docOf E cb f wf) last (fileOf E cb f wf) v A P M T d items ∧ last.n = 2 ∧
      IsPdf (fileOf E cb f wf) [] v items (2 + A.length + P.length + M.length + T.length) (2 + A.length + P.length + M.length + T.length - 1) ∧
      IsCatalog items (2 + A.length + P.length + M.length + T.length) c ∧ c.openAction = openEntry 3 (viewOf last.m.zoomMode) ∧ c.layout = layoutEntry (layoutOf last.m.layoutMode) ∧
      (last.l.outlines = [] → c.outlines = []) ∧ (last.l.outlines ≠ [] → c.outlines = outlinesEntry ((sEnc E last).n + 1 + last.l.outlines.length)) ∧
      LayersIn items (decryptOf E (docOf E cb f wf)) d c.layers base last.layer.list last.layer.openLayerPane ∧ c.script = scriptText (sInf E last) ∧ c.files = (sInf E last).embeddedFiles := by
  obtain ⟨last, v, A, P, M, T, d, items, hp, hb⟩ := printed_pf hf hcb hok
  have hpdf := hp.written.pdf hsize
  rw [hb] at hpdf
  have hn : last.n = 2 := hp.op.n.trans (pf_fresh hf).n
  obtain ⟨c, base, h⟩ := written_catalog hp.written hp.state hn hp.fin
  exact ⟨last, v, A, P, M, T, d, items, c, base, hp, hn, hpdf, h⟩

/-! ### C57: the display mode -/

/-- The zoom modes and the layout modes. -/
def zoomModes : List Bytes := [B "fullpage", B "fullwidth", B "real", B "default"]
@[inherit_doc zoomModes]
def layoutModes : List Bytes :=
  [B "single", B "continuous", B "two", B "default", B "SinglePage", B "OneColumn", B "TwoColumnLeft", B "TwoColumnRight", B "TwoPageLeft", B "TwoPageRight"]

theorem display_ok (f : Fpdf) (z l : Bytes) (he : f.err = none) (hz : z ∈ zoomModes) (hl : l = [] ∨ l ∈ layoutModes) :
    f.setDisplayMode z l = { f with m.zoomMode := z, m.layoutMode := if l = [] then B "default" else l } := by
  unfold Fpdf.setDisplayMode
  rw [if_neg (by rw [he]; simp)]
  dsimp only
  have h2 : (if l = [] then B "default" else l) ∈ layoutModes := by
    rcases hl with rfl | hl
    · decide
    · split
      · decide
      · exact hl
  generalize (if l = [] then B "default" else l) = l' at h2 ⊢
  unfold zoomModes at hz
  unfold layoutModes at h2
  rw [if_pos hz, if_pos h2]

/-- **C57** `SetDisplayMode` accepts the four zoom modes and the ten layout modes (and the empty layout), and rejects anything else. -/
theorem C57_checked (E : Ext) (cb : Cb) (f : Fpdf) (z l : Bytes) (he : f.err = none) :
    (f.exec E cb (.setDisplayMode z l)).err = none ↔ z ∈ zoomModes ∧ (l = [] ∨ l ∈ layoutModes) := by
  show (f.setDisplayMode z l).err = none ↔ _
  by_cases hz : z ∈ zoomModes
  · by_cases hl : l = [] ∨ l ∈ layoutModes
    · rw [display_ok f z l he hz hl]
      simp [hz, hl, he]
    · refine iff_of_false ?_ (fun h => hl h.2)
      rw [not_or] at hl
      unfold Fpdf.setDisplayMode
      rw [if_neg (by rw [he]; simp)]
      dsimp only
      rw [if_neg hl.1]
      have hz' := hz
      have hl' := hl.2
      unfold zoomModes at hz'
      unfold layoutModes at hl'
      rw [if_pos hz', if_neg hl']
      exact assignErr_some _ _
  · refine iff_of_false ?_ (fun h => hz h.1)
    unfold Fpdf.setDisplayMode
    rw [if_neg (by rw [he]; simp)]
    dsimp only
    have hz' := hz
    unfold zoomModes at hz'
    rw [if_neg hz']
    exact assignErr_some _ _

/-- A call of `SetDisplayMode`. -/
def setsDisplay : Op → Bool
  | .setDisplayMode .. => true
  | _ => false

/-- A call that attaches a file. -/
def attaches : Op → Bool
  | .setAttachments _ => true
  | .attachAnnotation .. => true
  | _ => false

/-- The display mode. -/
def displayOf (f : Fpdf) : Bytes × Bytes := (f.m.zoomMode, f.m.layoutMode)

theorem display_own (bad : Op → Bool) (hb : ∀ op, setsDisplay op = true → bad op = true) (E : Ext) (cb : Cb) (f : Fpdf) (op : Op) (hs : staysOnPage op = true) (h : bad op = false) :
    displayOf (f.exec E cb op) = displayOf f := by
  have h' : setsDisplay op = false := by
    cases hd : setsDisplay op with
    | false => rfl
    | true => rw [hb op hd] at h; cases h
  exact foot_get displayOf E cb f op hs (fun g => by cases op <;> first | rfl | cases h')

theorem layoutOf_default (l : Bytes) : layoutOf (if l = [] then B "default" else l) = layoutOf l := by
  split
  · next h => subst h; decide
  · rfl

/-- The display mode set last is in force when the document is written. -/
theorem display_last {E : Ext} {cb : Cb} {f0 f g last : Fpdf} {z l file : Bytes} {v : Nat} {A P M T : List Body} {d : Bytes} {items : List (Nat × Body)} (bad : Op → Bool)
    (hb : ∀ op, setsDisplay op = true → bad op = true) (hh : ∀ op, helper op = true → bad op = false)
    (hf : Reach E (pagesWithout bad) (f0.exec E {} (.setDisplayMode z l)) f) (hcb : CbReach E (pagesWithout bad) cb) (he : f.err = none)
    (hp : Printed E cb f g last file v A P M T d items) : last.m.zoomMode = z ∧ layoutOf last.m.layoutMode = layoutOf l := by
  have hk : displayOf last = displayOf (f0.exec E {} (.setDisplayMode z l)) := kept_last displayOf bad (fun _ => rfl) hh (fun cb f op => display_own bad hb E cb f op) hf hcb hp
  have h1 := pf_latch (pagesWithout_pf hf) he
  have h0 : f0.err = none := by
    by_contra hne
    have e : f0.exec E {} (.setDisplayMode z l) = f0 := by
      show f0.setDisplayMode z l = f0
      unfold Fpdf.setDisplayMode
      rw [if_pos hne]
    rw [e] at h1
    exact hne h1
  have h2 := (C57_checked E {} f0 z l h0).1 h1
  have e : f0.exec E {} (.setDisplayMode z l) = { f0 with m.zoomMode := z, m.layoutMode := if l = [] then B "default" else l } := display_ok f0 z l h0 h2.1 h2.2
  rw [e] at hk
  have a := congrArg Prod.fst hk
  have b := congrArg Prod.snd hk
  refine ⟨a, ?_⟩
  rw [← layoutOf_default l]
  exact congrArg layoutOf b

/-- **C57** The catalog names the page layout last asked for. -/
theorem C57_layout (E : Ext) (o u s : Bytes) (sz : Size) (f0 f : Fpdf) (cb : Cb) (wf : Bool) (z l : Bytes)
    (h0 : Reach E pagesFirst (Fpdf.new o u s sz) f0) (hf : Reach E (pagesWithout setsDisplay) (f0.exec E {} (.setDisplayMode z l)) f)
    (hcb : CbReach E (pagesWithout setsDisplay) cb) (hok : errOf E cb f wf = none) (hsize : (fileOf E cb f wf).length < 10 ^ 10) :
    ∃ version items root info c, IsPdf (fileOf E cb f wf) [] version items root info ∧ IsCatalog items root c ∧ c.layout = layoutEntry (layoutOf l) := by
  have h2 := (setup_step h0 (.setDisplayMode z l) rfl (by simp)).trans (pagesWithout_pf hf)
  obtain ⟨last, v, A, P, M, T, d, items, c, base, hp, hn, h⟩ := catalog_pf h2 (CbReach.pagesWithout hcb) hok hsize
  refine ⟨v, items, _, _, c, h.1, h.2.1, ?_⟩
  rw [h.2.2.2.1, (display_last setsDisplay (fun _ h => h) (fun op ho => by cases op <;> first | rfl | (simp [helper] at ho)) hf hcb (ok_err hok) hp).2]

/-- **C57** And the document opens at its first page with the zoom mode last asked for, unless it has attachments. -/
theorem C57_zoom (E : Ext) (o u s : Bytes) (sz : Size) (f0 f : Fpdf) (cb : Cb) (wf : Bool) (z l : Bytes)
    (h0 : Reach E noAttachments (Fpdf.new o u s sz) f0) (hf : Reach E (pagesWithout fun op => setsDisplay op || attaches op) (f0.exec E {} (.setDisplayMode z l)) f)
    (hcb : CbReach E (pagesWithout fun op => setsDisplay op || attaches op) cb) (hok : errOf E cb f wf = none) (hsize : (fileOf E cb f wf).length < 10 ^ 10) :
    ∃ version items root info c kids rest, IsPdf (fileOf E cb f wf) [] version items root info ∧ PageTree items kids rest ∧ 1 ≤ kids.length ∧ IsCatalog items root c ∧
      c.openAction = openEntry (kids.getD 0 0) (viewOf z) := by
  have no : ∀ op : Op, (setsDisplay op || attaches op) = false → (∀ as, op ≠ .setAttachments as) ∧ ∀ p a x y w h, op ≠ .attachAnnotation p a x y w h := by
    intro op h
    refine ⟨fun as he => ?_, fun p a x y w hh he => ?_⟩ <;> subst he <;> simp [attaches] at h
  have w : ∀ {a b : Fpdf}, Reach E (pagesWithout fun op => setsDisplay op || attaches op) a b → Reach E noAttachments a b :=
    fun h => Reach.mono (G := pagesWithout fun op => setsDisplay op || attaches op) (H := noAttachments) (fun _ _ op h => ⟨h.1, no op h.2⟩) (fun _ h => h) h
  have h1 : Reach E noAttachments (Fpdf.new o u s sz) (f0.exec E {} (.setDisplayMode z l)) :=
    Reach.step _ _ h0 ⟨⟨by simp, by simp, by simp, fun _ => rfl⟩, by simp, by simp⟩ (by simp) (by simp) (fun s => Reach.refl s)
  have hc : CbReach E noAttachments cb := ⟨fun a ha s hs => w (hcb.header a ha s hs), fun a ha b s hs => w (hcb.footer a ha b s hs), fun s => w (hcb.accept s)⟩
  obtain ⟨last, v, P, M, T, d, items, hp, hb⟩ := printed_noAtt (h1.trans (w hf)) hc hok
  have hpdf := hp.written.pdf hsize
  rw [hb] at hpdf
  have hn : last.n = 2 := hp.op.n.trans (pf_fresh (noAttachments_pf (h1.trans (w hf)))).n
  obtain ⟨c, base, h⟩ := written_catalog hp.written hp.state hn hp.fin
  have hpg : 1 ≤ last.page := Nat.pos_of_ne_zero hp.page
  refine ⟨v, items, _, _, c, _, _, hpdf, hp.written.pageTree, by simpa using hpg, h.1, ?_⟩
  rw [h.2.1, kids_getD last.page 1 (Nat.le_refl 1) hpg]
  rw [(display_last (fun op => setsDisplay op || attaches op) (fun op h => by rw [h]; rfl) (fun op ho => by cases op <;> first | rfl | (simp [helper] at ho)) hf hcb (ok_err hok) hp).1]

/-! ### C58: layers -/

/-- Layers are only added, and the layer pane stays open. -/
structure LayersLe (f g : Fpdf) : Prop where
  list : f.layer.list <+: g.layer.list
  pane : f.layer.openLayerPane = true → g.layer.openLayerPane = true

theorem layers_data : DataRel LayersLe where
  trans := fun f g h a b => ⟨a.list.trans b.list, fun o => b.pane (a.pane o)⟩
  stp := fun f g hb => by
    have h := congrArg (fun f : Fpdf => f.layer.list) hb
    have h2 := congrArg (fun f : Fpdf => f.layer.openLayerPane) hb
    have h' : g.layer.list = f.layer.list := h
    have h2' : g.layer.openLayerPane = f.layer.openLayerPane := h2
    exact ⟨by rw [h'], by rw [h2']; exact id⟩

theorem layers_own (E : Ext) (cb : Cb) (f : Fpdf) (op : Op) (hs : staysOnPage op = true) : LayersLe f (f.exec E cb op) := by
  by_cases hu : ∃ n v, op = .addLayer n v
  · obtain ⟨n, v, rfl⟩ := hu
    exact ⟨List.prefix_append _ _, id⟩
  · by_cases hp : op = .openLayerPane
    · subst hp; exact ⟨List.prefix_refl _, fun _ => rfl⟩
    · have h := foot_get (fun f => (f.layer.list, f.layer.openLayerPane)) E cb f op hs (fun g => by
        cases op <;> first | rfl | exact absurd ⟨_, _, rfl⟩ hu | exact absurd rfl hp)
      simp only [Prod.mk.injEq] at h
      exact ⟨by rw [h.1], by rw [h.2]; exact id⟩

theorem layers_last {E : Ext} {G : Guard} (hG : OpenGuard G) {cb : Cb} {f0 f g last : Fpdf} {file : Bytes} {v : Nat} {A P M T : List Body} {d : Bytes}
    {items : List (Nat × Body)} (hf : Reach E G f0 f) (hcb : CbReach E G cb) (hp : Printed E cb f g last file v A P M T d items) : LayersLe f0 last :=
  last_data hG layers_data (fun cb f op ho => layers_own E cb f op (helper_stays ho)) (fun f cb op _ hs => layers_own E cb f op hs) hf hcb hp.eq hp.page1

/-- **C58** A layer added by `AddLayer` is in the file: the catalog lists it at the place of its id, says that it is hidden if and only if it is not visible at first,
its object has its name, and the content marked with its id belongs to it. -/
theorem C58_layer (E : Ext) (o u s : Bytes) (sz : Size) (f0 f : Fpdf) (cb : Cb) (wf : Bool) (name : Bytes) (visible : Bool)
    (h0 : Reach E pagesFirst (Fpdf.new o u s sz) f0) (hf : Reach E pagesFirst (f0.exec E {} (.addLayer name visible)) f)
    (hcb : CbReach E pagesFirst cb) (hok : errOf E cb f wf = none) (hsize : (fileOf E cb f wf).length < 10 ^ 10) :
    ∃ version items root info c dict all off pane n, IsPdf (fileOf E cb f wf) [] version items root info ∧ IsCatalog items root c ∧
      (2, Body.plain (B "<<\n" ++ dict ++ B ">>\n")) ∈ items ∧ c.layers = layersEntry all off ++ pane ∧ all.Nodup ∧ off ⊆ all ∧
      all[f0.addLayerId]? = some n ∧ (n ∈ off ↔ visible = false) ∧
      Names dict (B "Properties") (B "OC" ++ decimal f0.addLayerId) n ∧ LayerObject items (decryptOf E (docOf E cb f wf)) n name := by
  have h2 := (setup_step h0 (.addLayer name visible) rfl (by simp)).trans hf
  obtain ⟨last, v, A, P, M, T, d, items, c, base, hp, hn, q1, q2, _, _, _, _, q3, _⟩ := catalog_pf h2 hcb hok hsize
  obtain ⟨t, ht⟩ := (layers_last pagesFirst_open hf hcb hp).list
  have e : (f0.exec E {} (.addLayer name visible)).layer.list = f0.layer.list ++ [{ name := name, visible := visible }] := rfl
  rw [e, List.append_assoc] at ht
  have hx : last.layer.list[f0.layer.list.length]? = some { name := name, visible := visible } := by
    rw [← ht]; simp
  have hne : last.layer.list ≠ [] := by rw [← ht]; simp
  obtain ⟨off, r1, r2, r3⟩ := q3.listed hne
  obtain ⟨s1, s2⟩ := q3.each _ _ hx
  refine ⟨v, items, _, _, c, d, _, off, _, base + f0.layer.list.length, q1, q2, ?_, r1, ?_, r3, ?_, r2 _ _ hx, s1, s2⟩
  · exact hp.written.mem_dict
  · exact List.Nodup.map (fun a b h => by simpa using h) List.nodup_range
  · show ((List.range last.layer.list.length).map (base + ·))[f0.layer.list.length]? = _
    rw [List.getElem?_map, List.getElem?_range (List.getElem?_eq_some_iff.1 hx).1]
    rfl

/-- A call of `AddLayer`. -/
def addsLayer : Op → Bool
  | .addLayer .. => true
  | _ => false

theorem noLayer_own (E : Ext) (cb : Cb) (f : Fpdf) (op : Op) (hs : staysOnPage op = true) (h : addsLayer op = false) : (f.exec E cb op).layer.list = f.layer.list :=
  foot_get (fun f => f.layer.list) E cb f op hs (fun g => by cases op <;> first | rfl | cases h)

/-- **C58** The catalog lists no other layers: as many as `AddLayer` has given ids (when the call-backs that run on closing add none), and there is no entry for layers if there are none. -/
theorem C58_only (E : Ext) (o u s : Bytes) (sz : Size) (f : Fpdf) (cb : Cb) (wf : Bool) (hf : Reach E pagesFirst (Fpdf.new o u s sz) f)
    (hcb : CbReach E (pagesWithout addsLayer) cb) (hok : errOf E cb f wf = none) (hsize : (fileOf E cb f wf).length < 10 ^ 10) :
    ∃ version items root info c, IsPdf (fileOf E cb f wf) [] version items root info ∧ IsCatalog items root c ∧
      (f.addLayerId = 0 → c.layers = []) ∧ (f.addLayerId ≠ 0 → ∃ all off pane, c.layers = layersEntry all off ++ pane ∧ all.length = f.addLayerId) := by
  obtain ⟨last, v, A, P, M, T, d, items, c, base, hp, hn, q1, q2, _, _, _, _, q3, _⟩ := catalog_pf hf (CbReach.pagesWithout hcb) hok hsize
  have hk : last.layer.list = f.layer.list :=
    kept_last (fun f => f.layer.list) addsLayer (fun _ => rfl) (fun op ho => by cases op <;> first | rfl | (simp [helper] at ho)) (fun cb f op => noLayer_own E cb f op) (Reach.refl f) hcb hp
  have hl : f.addLayerId = last.layer.list.length := by rw [hk]; rfl
  rw [hl]
  refine ⟨v, items, _, _, c, q1, q2, fun h => q3.empty (List.length_eq_zero_iff.1 h), fun h => ?_⟩
  obtain ⟨off, r1, r2, r3⟩ := q3.listed (fun e => h (by rw [e]; rfl))
  exact ⟨_, off, _, r1, by simp⟩

/-- **C58** After `OpenLayerPane`, a document with layers opens with the layer pane shown. -/
theorem C58_pane (E : Ext) (o u s : Bytes) (sz : Size) (f0 f : Fpdf) (cb : Cb) (wf : Bool)
    (h0 : Reach E pagesFirst (Fpdf.new o u s sz) f0) (hf : Reach E pagesFirst (f0.exec E {} .openLayerPane) f)
    (hcb : CbReach E pagesFirst cb) (hok : errOf E cb f wf = none) (hsize : (fileOf E cb f wf).length < 10 ^ 10) (hl : f.addLayerId ≠ 0) :
    ∃ version items root info c all off, IsPdf (fileOf E cb f wf) [] version items root info ∧ IsCatalog items root c ∧
      c.layers = layersEntry all off ++ B "/PageMode /UseOC\n" := by
  have h2 := (setup_step h0 .openLayerPane rfl (by simp)).trans hf
  obtain ⟨last, v, A, P, M, T, d, items, c, base, hp, hn, q1, q2, _, _, _, _, q3, _⟩ := catalog_pf h2 hcb hok hsize
  have hpane : last.layer.openLayerPane = true := (layers_last pagesFirst_open hf hcb hp).pane rfl
  have hpre := (layers_last pagesFirst_open (Reach.refl f) hcb hp).list
  have hne : last.layer.list ≠ [] := by
    intro e
    rw [e] at hpre
    exact hl (by show f.layer.list.length = 0; rw [List.prefix_nil.1 hpre]; rfl)
  obtain ⟨off, r1, r2, r3⟩ := q3.listed hne
  rw [hpane, if_pos rfl] at r1
  exact ⟨v, items, _, _, c, _, off, q1, q2, r1⟩

/-! ### C59: scripts -/

/-- A call of `SetJavascript`. -/
def setsScript : Op → Bool
  | .setJavascript _ => true
  | _ => false

theorem script_own (E : Ext) (cb : Cb) (f : Fpdf) (op : Op) (hs : staysOnPage op = true) (h : setsScript op = false) : (f.exec E cb op).m.javascript = f.m.javascript :=
  foot_get (fun f => f.m.javascript) E cb f op hs (fun g => by cases op <;> first | rfl | cases h)

/-- **C59** The script last given to `SetJavascript` is the one in the file: the catalog names a list with one script, whose text reads as it was given. -/
theorem C59_script (E : Ext) (o u s : Bytes) (sz : Size) (f0 f : Fpdf) (cb : Cb) (wf : Bool) (script : Bytes)
    (h0 : Reach E pagesFirst (Fpdf.new o u s sz) f0) (hf : Reach E (pagesWithout setsScript) (f0.exec E {} (.setJavascript script)) f)
    (hcb : CbReach E (pagesWithout setsScript) cb) (hok : errOf E cb f wf = none) (hsize : (fileOf E cb f wf).length < 10 ^ 10) :
    ∃ version items root info c, IsPdf (fileOf E cb f wf) [] version items root info ∧ IsCatalog items root c ∧
      ∃ n, c.script = B "/JavaScript " ++ decimal n ++ B " 0 R\n" ∧ ScriptAt items (decryptOf E (docOf E cb f wf)) n script := by
  have h2 := (setup_step h0 (.setJavascript script) rfl (by simp)).trans (pagesWithout_pf hf)
  obtain ⟨last, v, A, P, M, T, d, items, c, base, hp, hn, q1, q2, _, _, _, _, _, q3, _⟩ := catalog_pf h2 (CbReach.pagesWithout hcb) hok hsize
  have hk : last.m.javascript = some script := (kept_last (fun f => f.m.javascript) setsScript (fun _ => rfl) (fun op ho => by cases op <;> first | rfl | (simp [helper] at ho))
    (fun cb f op => script_own E cb f op) hf hcb hp).trans rfl
  have hend := hp.written.ending hp.state hn
  obtain ⟨n, x, j1, j2, j3, j4⟩ := hend.js script hk
  have hjs := hend.same.js
  clear hend
  generalize sInf E last = t at *
  refine ⟨v, items, _, _, c, q1, q2, n, ?_, textstringPlain x, x, ?_, j3, readLit_textstringPlain x, ?_⟩
  · rw [q3]
    unfold scriptText
    rw [hjs, hk, j1, natDec_decimal]
    rfl
  · rw [← natDec_decimal]; exact j2
  · exact Holds.read hp.fin.encrypted hp.fin.key j4

/-- **C59** A document without a script has no such entry. -/
theorem C59_none (E : Ext) (o u s : Bytes) (sz : Size) (f : Fpdf) (cb : Cb) (wf : Bool) (hf : Reach E (pagesWithout setsScript) (Fpdf.new o u s sz) f)
    (hcb : CbReach E (pagesWithout setsScript) cb) (hok : errOf E cb f wf = none) (hsize : (fileOf E cb f wf).length < 10 ^ 10) :
    ∃ version items root info c, IsPdf (fileOf E cb f wf) [] version items root info ∧ IsCatalog items root c ∧ c.script = [] := by
  obtain ⟨last, v, A, P, M, T, d, items, c, base, hp, hn, q1, q2, _, _, _, _, _, q3, _⟩ := catalog_pf (pagesWithout_pf hf) (CbReach.pagesWithout hcb) hok hsize
  have hk : last.m.javascript = none := (kept_last (fun f => f.m.javascript) setsScript (fun _ => rfl) (fun op ho => by cases op <;> first | rfl | (simp [helper] at ho))
    (fun cb f op => script_own E cb f op) hf hcb hp).trans (new_get (fun f => f.m.javascript) (fun _ => rfl) o u s sz)
  have hjs := (hp.written.ending hp.state hn).same.js
  generalize sInf E last = t at *
  refine ⟨v, items, _, _, c, q1, q2, ?_⟩
  rw [q3]
  unfold scriptText
  rw [hjs, hk]
  rfl

theorem joinB_intercalate (sep : Bytes) (l : List Bytes) : joinB sep l = List.intercalate sep l := by
  fun_induction joinB sep l with
  | case1 => rfl
  | case2 a => simp [List.intercalate]
  | case3 a r h ih =>
    rw [ih]
    cases r with
    | nil => exact absurd rfl h
    | cons b r => simp [List.intercalate, List.intersperse]

theorem embeddedFiles_entry (f : Fpdf) : f.embeddedFiles = filesEntry (f.l.attachments.map (·.objectNumber)) := by
  unfold Fpdf.embeddedFiles filesEntry
  dsimp only
  rw [joinB_intercalate]
  have e : ∀ (i : Nat) (a : Attachment), sprintf "(Attachement%d) %d 0 R " [.d (i + 1 : Nat), .d a.objectNumber] = B "(Attachement" ++ decimal (i + 1) ++ B ") " ++ decimal a.objectNumber ++ B " 0 R " := by
    intro i a
    have h : sprintf "(Attachement%d) %d 0 R " [.d (i + 1 : Nat), .d a.objectNumber] = B "(Attachement" ++ (intDec (i + 1 : Nat) ++ (B ") " ++ (intDec a.objectNumber ++ B " 0 R "))) := sprintfB_of_render _ _ _ rfl
    rw [h, intDec_ofNat, intDec_ofNat, natDec_decimal, natDec_decimal]
    simp only [List.append_assoc]
  simp only [e]
  congr 3
  apply List.ext_getElem?
  intro i
  simp only [List.getElem?_mapIdx, List.getElem?_map, Option.map_map]
  rfl

/-! ### C60: metadata -/

/-- A call of `SetXmpMetadata`. -/
def setsXmp : Op → Bool
  | .setXmp _ => true
  | _ => false

theorem xmp_own (E : Ext) (cb : Cb) (f : Fpdf) (op : Op) (hs : staysOnPage op = true) (h : setsXmp op = false) : (f.exec E cb op).m.xmp = f.m.xmp :=
  foot_get (fun f => f.m.xmp) E cb f op hs (fun g => by cases op <;> first | rfl | cases h)

/-- **C60** The metadata last given to `SetXmpMetadata` is in the file, in a metadata stream. (But see `C60_unreferenced`.) -/
theorem C60_stream (E : Ext) (o u s : Bytes) (sz : Size) (f0 f : Fpdf) (cb : Cb) (wf : Bool) (xmp : Bytes) (hne : xmp ≠ [])
    (h0 : Reach E pagesFirst (Fpdf.new o u s sz) f0) (hf : Reach E (pagesWithout setsXmp) (f0.exec E {} (.setXmp xmp)) f)
    (hcb : CbReach E (pagesWithout setsXmp) cb) (hok : errOf E cb f wf = none) (hsize : (fileOf E cb f wf).length < 10 ^ 10) :
    ∃ version items root info n data, IsPdf (fileOf E cb f wf) [] version items root info ∧
      (n, Body.stream (B "<< /Type /Metadata /Subtype /XML /Length " ++ decimal xmp.length ++ B " >>\n") data) ∈ items ∧ decryptOf E (docOf E cb f wf) n data = xmp := by
  have h2 := (setup_step h0 (.setXmp xmp) rfl (by simp)).trans (pagesWithout_pf hf)
  obtain ⟨last, v, A, P, M, T, d, items, c, base, hp, hn, q1, _⟩ := catalog_pf h2 (CbReach.pagesWithout hcb) hok hsize
  have hk : last.m.xmp = xmp := (kept_last (fun f => f.m.xmp) setsXmp (fun _ => rfl) (fun op ho => by cases op <;> first | rfl | (simp [helper] at ho))
    (fun cb f op => xmp_own E cb f op) hf hcb hp).trans rfl
  have hend := hp.written.ending hp.state hn
  obtain ⟨n, b, j1, j2⟩ := hend.xmp (by rw [hk]; exact hne)
  clear hend
  rw [hk, natDec_decimal] at j1
  rw [hk] at j2
  exact ⟨v, items, _, _, n, b, q1, j1, Holds.read hp.fin.encrypted hp.fin.key j2⟩

/-- **C60** But the catalog never names it: whatever the program, the catalog is the one of `C57` to `C59` and `C34`, which has no `/Metadata` entry, so a reader does not find the stream. -/
theorem C60_unreferenced (E : Ext) (o u s : Bytes) (sz : Size) (f : Fpdf) (cb : Cb) (wf : Bool) (hf : Reach E pagesFirst (Fpdf.new o u s sz) f)
    (hcb : CbReach E pagesFirst cb) (hok : errOf E cb f wf = none) (hsize : (fileOf E cb f wf).length < 10 ^ 10) :
    ∃ version items root info c, IsPdf (fileOf E cb f wf) [] version items root info ∧ IsCatalog items root c ∧
      (∃ n v, c.openAction = openEntry n v) ∧ (∃ v, c.layout = layoutEntry v) ∧ (c.outlines = [] ∨ ∃ n, c.outlines = outlinesEntry n) ∧
      (c.layers = [] ∨ ∃ all off pane, c.layers = layersEntry all off ++ pane ∧ (pane = [] ∨ pane = B "/PageMode /UseOC\n")) ∧
      (c.script = [] ∨ ∃ n, c.script = B "/JavaScript " ++ decimal n ++ B " 0 R\n") ∧ ∃ fs : List Nat, c.files = filesEntry fs := by
  obtain ⟨last, v, A, P, M, T, d, items, c, base, hp, hn, q1, q2, q3, q4, q5, q6, q7, q8, q9⟩ := catalog_pf hf hcb hok hsize
  refine ⟨v, items, _, _, c, q1, q2, ⟨_, _, q3⟩, ⟨_, q4⟩, ?_, ?_, ?_, ?_⟩
  · by_cases h : last.l.outlines = []
    · exact .inl (q5 h)
    · exact .inr ⟨_, q6 h⟩
  · by_cases h : last.layer.list = []
    · exact .inl (q7.empty h)
    · obtain ⟨off, r1, _⟩ := q7.listed h
      refine .inr ⟨_, _, _, r1, ?_⟩
      split
      · exact .inr rfl
      · exact .inl rfl
  · rw [q8]
    generalize sInf E last = t
    unfold scriptText
    split
    · exact .inr ⟨_, by rw [natDec_decimal]⟩
    · exact .inl rfl
  · rw [q9]
    generalize sInf E last = t
    exact ⟨_, embeddedFiles_entry t⟩

/-! ### C61: the encryption dictionary -/

/-- A call of `SetProtection`. -/
def protects : Op → Bool
  | .setProtection .. => true
  | _ => false

theorem protect_own (E : Ext) (cb : Cb) (f : Fpdf) (op : Op) (hs : staysOnPage op = true) (h : protects op = false) : (f.exec E cb op).m.protect = f.m.protect :=
  foot_get (fun f => f.m.protect) E cb f op hs (fun g => by cases op <;> first | rfl | cases h)

theorem intDec_toString (z : Int) : intDec z = B (toString z) := by
  cases z with
  | ofNat n => exact (intDec_ofNat n).trans (natDec_decimal n)
  | negSucc n =>
    show intDec (Int.negSucc n) = B ("-" ++ Nat.repr (n + 1))
    have e : B ("-" ++ Nat.repr (n + 1)) = B "-" ++ decimal (n + 1) := by
      unfold decimal B
      rw [String.toList_append, List.map_append]
      rfl
    rw [e, ← natDec_decimal]
    unfold intDec
    rw [if_pos (Int.negSucc_lt_zero n)]
    rfl

theorem encryptText_eq (p : Protect) : encryptText p = B "<<\n/Filter /Standard\n/V 1\n/R 2\n/O " ++ textstringPlain p.oValue ++ B "\n/U " ++ textstringPlain p.uValue ++ B "\n/P " ++
    B (toString p.pValue) ++ B "\n>>\n" := by
  unfold encryptText textstringPlain
  rw [intDec_toString, show B "<<\n/Filter /Standard\n/V 1\n/R 2\n/O (" = B "<<\n/Filter /Standard\n/V 1\n/R 2\n/O " ++ B "(" from by decide,
    show B ")\n/U (" = B ")" ++ (B "\n/U " ++ B "(") from by decide, show B ")\n/P " = B ")" ++ B "\n/P " from by decide]
  generalize B "<<\n/Filter /Standard\n/V 1\n/R 2\n/O " = a
  generalize B (toString p.pValue) = b
  simp only [List.append_assoc]

theorem encDict_of {items : List (Nat × Body)} {n : Nat} {p : Protect} (h : (n, Body.plain (encryptText p)) ∈ items) :
    EncryptDict items n (writtenDict p).O (writtenDict p).U (writtenDict p).P := by
  rw [encryptText_eq] at h
  exact ⟨textstringPlain p.oValue, textstringPlain p.uValue, readLit_textstringPlain _, readLit_textstringPlain _, h⟩

theorem endsWith_of {file : Bytes} {n : Nat} {enc : Option Nat} (h : ∃ pre pos, file = pre ++ trailerText n enc pos) : EndsWith file (n + 1) n (n - 1) enc := by
  obtain ⟨pre, pos, h⟩ := h
  refine ⟨pre, pos, ?_⟩
  rw [h]
  unfold trailerText
  cases enc <;> simp only [natDec_decimal]

set_option linter.constructorNameAsVariable false in
/-- The end of the file and the encryption dictionary. -/
theorem written_enc {E : Ext} {f : Fpdf} {v : Nat} {A P M T : List Body} {d : Bytes} {items : List (Nat × Body)} {pdf : Bytes} (h : Written E f v A P M T d items pdf)
    (hs : f.state = 1) (hn : f.n = 2) :
    (f.m.protect.encrypted = false → EndsWith pdf (2 + A.length + P.length + M.length + T.length + 1) (2 + A.length + P.length + M.length + T.length)
      (2 + A.length + P.length + M.length + T.length - 1) none) ∧
    (f.m.protect.encrypted = true → ∃ n, EndsWith pdf (2 + A.length + P.length + M.length + T.length + 1) (2 + A.length + P.length + M.length + T.length)
      (2 + A.length + P.length + M.length + T.length - 1) (some n) ∧ EncryptDict items n (writtenDict f.m.protect).O (writtenDict f.m.protect).U (writtenDict f.m.protect).P) := by
  have hend := h.ending hs hn
  have h1 := hend.enc
  have h2 := hend.endEnc
  have h3 := h.trailer
  clear hend h
  generalize sEnd E f = t at *
  constructor
  · intro he
    rw [if_neg (by rw [h2, he]; simp)] at h3
    exact endsWith_of h3
  · intro he
    rw [if_pos (h2.trans he)] at h3
    exact ⟨_, endsWith_of h3, encDict_of (h1 he)⟩

/-- **C61** In a document protected with `SetProtection`, the trailer names an encryption dictionary (and nothing else does), with which a reader accepts the user password and
the owner password, finds the permissions asked for, and has the key to everything that is encrypted (`C04`, `C13`, …). -/
theorem C61_protected (E : Ext) (o u s : Bytes) (sz : Size) (f0 f : Fpdf) (cb : Cb) (wf : Bool) (flag : UInt8) (user owner : Bytes)
    (h0 : Reach E pagesFirst (Fpdf.new o u s sz) f0) (hf : Reach E (pagesWithout protects) (f0.exec E {} (.setProtection flag user owner)) f)
    (hcb : CbReach E (pagesWithout protects) cb) (hok : errOf E cb f wf = none) (hsize : (fileOf E cb f wf).length < 10 ^ 10) :
    ∃ version items root info n d, IsPdf (fileOf E cb f wf) [] version items root info ∧ EndsWith (fileOf E cb f wf) (root + 1) root info (some n) ∧
      EncryptDict items n d.O d.U d.P ∧ d.id0 = [] ∧
      authUser E.md5 d user = true ∧ authOwner E.md5 d (if owner = [] then E.rnd else owner) = true ∧
      (permBit d.P 3 = decide (flag.toNat / 4 % 2 = 1)) ∧ (permBit d.P 4 = decide (flag.toNat / 8 % 2 = 1)) ∧
      (permBit d.P 5 = decide (flag.toNat / 16 % 2 = 1)) ∧ (permBit d.P 6 = decide (flag.toNat / 32 % 2 = 1)) ∧
      ∀ k b, decryptOf E (docOf E cb f wf) k b = decryptIn E.md5 (fileKey E.md5 d user) k b := by
  have h2 := (setup_step h0 (.setProtection flag user owner) rfl (by simp)).trans (pagesWithout_pf hf)
  obtain ⟨last, v, A, P, M, T, d, items, c, base, hp, hn, q1, _⟩ := catalog_pf h2 (CbReach.pagesWithout hcb) hok hsize
  have h1 := pf_latch (pagesWithout_pf hf) (ok_err hok)
  have hk : last.m.protect = (f0.exec E {} (.setProtection flag user owner)).m.protect :=
    kept_last (fun f => f.m.protect) protects (fun _ => rfl) (fun op ho => by cases op <;> first | rfl | (simp [helper] at ho)) (fun cb f op => protect_own E cb f op) hf hcb hp
  have he0 : f0.err = none := by
    by_contra hne
    have e : f0.exec E {} (.setProtection flag user owner) = f0 := by
      show (if f0.err ≠ none then f0 else _) = f0
      rw [if_pos hne]
    rw [e] at h1
    exact hne h1
  have e : f0.exec E {} (.setProtection flag user owner) = { f0 with m.protect := f0.m.protect.setProtection E.md5 E.rnd flag user owner } := by
    show (if f0.err ≠ none then f0 else _) = _
    rw [if_neg (by rw [he0]; simp)]
  rw [e] at hk
  have hk' : last.m.protect = f0.m.protect.setProtection E.md5 E.rnd flag user owner := hk
  have henc : last.m.protect.encrypted = true := by rw [hk']; rfl
  obtain ⟨n, g1, g2⟩ := (written_enc hp.written hp.state hn).2 henc
  obtain ⟨a1, a2, a3, a4⟩ := C05_passwords_authenticate E.md5 E.rnd f0.m.protect flag user owner
  obtain ⟨b1, b2, b3, b4⟩ := C05_permissions E.md5 E.rnd f0.m.protect flag user owner
  refine ⟨v, items, _, _, n, writtenDict last.m.protect, q1, g1, g2, rfl, ?_⟩
  · rw [hk']
    refine ⟨a1, a3, b1, b2, b3, b4, fun k b => ?_⟩
    unfold decryptOf
    rw [hp.fin.encrypted, hp.fin.key, henc, if_pos rfl, hk', a4]

/-- **C61** The trailer of a document that is not protected names no encryption dictionary. -/
theorem C61_unprotected (E : Ext) (o u s : Bytes) (sz : Size) (f : Fpdf) (cb : Cb) (wf : Bool) (hf : Reach E (pagesWithout protects) (Fpdf.new o u s sz) f)
    (hcb : CbReach E (pagesWithout protects) cb) (hok : errOf E cb f wf = none) (hsize : (fileOf E cb f wf).length < 10 ^ 10) :
    ∃ version items root info, IsPdf (fileOf E cb f wf) [] version items root info ∧ EndsWith (fileOf E cb f wf) (root + 1) root info none := by
  obtain ⟨last, v, A, P, M, T, d, items, c, base, hp, hn, q1, _⟩ := catalog_pf (pagesWithout_pf hf) (CbReach.pagesWithout hcb) hok hsize
  have hk : last.m.protect = (Fpdf.new o u s sz).m.protect :=
    kept_last (fun f => f.m.protect) protects (fun _ => rfl) (fun op ho => by cases op <;> first | rfl | (simp [helper] at ho)) (fun cb f op => protect_own E cb f op) hf hcb hp
  have henc : last.m.protect.encrypted = false := by
    rw [hk]
    exact new_get (fun f => f.m.protect.encrypted) (fun _ => rfl) o u s sz
  exact ⟨v, items, _, _, q1, (written_enc hp.written hp.state hn).1 henc⟩

/-! ### C22: the version in the header -/

/-- What decides the version only grows. -/
structure VerLe (f g : Fpdf) : Prop where
  version : f.m.pdfVersion ≤ g.m.pdfVersion
  modes : f.r.blendMap ≠ [] → g.r.blendMap ≠ []

theorem VerLe.of_eq {f g : Fpdf} (h1 : g.m.pdfVersion = f.m.pdfVersion) (h2 : g.r.blendMap = f.r.blendMap) : VerLe f g := ⟨by rw [h1], by rw [h2]; exact id⟩

theorem ver_data : DataRel VerLe where
  trans := fun f g h a b => ⟨a.version.trans b.version, fun o => b.modes (a.modes o)⟩
  stp := fun f g hb => by
    have h := congrArg (fun f : Fpdf => f.m.pdfVersion) hb
    have h2 := congrArg (fun f : Fpdf => f.r.blendMap) hb
    exact VerLe.of_eq h h2

theorem insert_ne_nil {α β : Type} [DecidableEq α] (k : α) (v : β) (l : List (α × β)) : Model.insert k v l ≠ [] := by
  cases l with
  | nil => simp [Model.insert]
  | cons a l => obtain ⟨x, y⟩ := a; unfold Model.insert; split <;> simp

theorem outf_modes (f : Fpdf) (s : String) (a : List Arg) : (f.outf s a).r.blendMap = f.r.blendMap ∧ (f.outf s a).m.pdfVersion = f.m.pdfVersion := by
  unfold Fpdf.outf Fpdf.out
  repeat' split
  all_goals exact ⟨rfl, rfl⟩

theorem setAlpha_ver (f : Fpdf) (a : Rat) (m : Bytes) : VerLe f (f.setAlpha a m) ∧ ((f.setAlpha a m).err = none → (f.setAlpha a m).r.blendMap ≠ []) := by
  unfold Fpdf.setAlpha
  split
  · next h => exact ⟨VerLe.of_eq rfl rfl, fun he => absurd he h⟩
  split
  · exact ⟨VerLe.of_eq rfl rfl, fun he => absurd he (assignErr_some _ _)⟩
  split
  · exact ⟨VerLe.of_eq rfl rfl, fun he => absurd he (assignErr_some _ _)⟩
  dsimp only
  have key : ∀ (g : Fpdf) pos, VerLe f g → g.r.blendMap ≠ [] →
      VerLe f (g.outf "/GS%d gs" [.d pos]) ∧ ((g.outf "/GS%d gs" [.d pos]).err = none → (g.outf "/GS%d gs" [.d pos]).r.blendMap ≠ []) := by
    intro g pos h1 h2
    obtain ⟨o1, o2⟩ := outf_modes g "/GS%d gs" [.d pos]
    exact ⟨⟨by rw [o2]; exact h1.version, fun _ => by rw [o1]; exact h2⟩, fun _ => by rw [o1]; exact h2⟩
  split
  · next p hl =>
    refine key _ _ (VerLe.of_eq rfl rfl) (fun e => ?_)
    have e' : f.r.blendMap = [] := e
    rw [e'] at hl
    cases hl
  · exact key _ _ ⟨Nat.le_refl _, fun _ => insert_ne_nil _ _ _⟩ (insert_ne_nil _ _ _)

theorem registerImage_ver (E : Ext) (f : Fpdf) (n : Bytes) (p : Option ImageInfo) : VerLe f (f.registerImage E n p) := by
  unfold Fpdf.registerImage
  split
  · exact VerLe.of_eq rfl rfl
  split
  · exact VerLe.of_eq rfl rfl
  split
  · exact VerLe.of_eq rfl rfl
  dsimp only
  split
  · next h => exact ⟨by show f.m.pdfVersion ≤ 4; omega, id⟩
  · exact VerLe.of_eq rfl rfl

theorem ver_own (E : Ext) (cb : Cb) (f : Fpdf) (op : Op) (hs : staysOnPage op = true) : VerLe f (f.exec E cb op) := by
  by_cases h1 : ∃ a m, op = .setAlpha a m
  · obtain ⟨a, m, rfl⟩ := h1
    exact (setAlpha_ver f a m).1
  by_cases h2 : ∃ n p, op = .registerImage n p
  · obtain ⟨n, p, rfl⟩ := h2
    exact registerImage_ver E f n p
  by_cases h3 : ∃ n o p, op = .registerImageFile n o p
  · obtain ⟨n, o, p, rfl⟩ := h3
    show VerLe f (f.registerImageFile E n o p)
    unfold Fpdf.registerImageFile
    split
    · exact VerLe.of_eq rfl rfl
    split
    · exact registerImage_ver E f n p
    · exact VerLe.of_eq rfl rfl
  have h := foot_get (fun f => (f.m.pdfVersion, f.r.blendMap)) E cb f op hs (fun g => by
    cases op <;> first | rfl | exact absurd ⟨_, _, rfl⟩ h1 | exact absurd ⟨_, _, rfl⟩ h2 | exact absurd ⟨_, _, _, rfl⟩ h3)
  simp only [Prod.mk.injEq] at h
  exact VerLe.of_eq h.1 h.2

theorem ver_last {E : Ext} {cb : Cb} {f0 f g last : Fpdf} {file : Bytes} {v : Nat} {A P M T : List Body} {d : Bytes}
    {items : List (Nat × Body)} (hf : Reach E pagesFirst f0 f) (hcb : CbReach E pagesFirst cb) (hp : Printed E cb f g last file v A P M T d items) : VerLe f0 last :=
  last_data pagesFirst_open ver_data (fun cb f op ho => ver_own E cb f op (helper_stays ho)) (fun f cb op _ hs => ver_own E cb f op hs) hf hcb hp.eq hp.page1

theorem putheader_ver (f : Fpdf) : f.m.pdfVersion ≤ f.putheader.m.pdfVersion ∧ (f.layer.list ≠ [] → 5 ≤ f.putheader.m.pdfVersion) ∧ (f.r.blendMap ≠ [] → 4 ≤ f.putheader.m.pdfVersion) ∧
    (f.layer.list = [] → f.r.blendMap = [] → f.putheader.m.pdfVersion = f.m.pdfVersion) := by
  unfold Fpdf.putheader
  dsimp only
  have ho : ∀ (g : Fpdf) b, (g.out b).m.pdfVersion = g.m.pdfVersion := by
    intro g b
    unfold Fpdf.out
    repeat' split
    all_goals rfl
  rw [ho]
  by_cases h1 : f.layer.list.length > 0 ∧ f.m.pdfVersion < 5
  · rw [if_pos h1]
    have e : ¬ (({ f with m.pdfVersion := 5 } : Fpdf).r.blendMap.length > 0 ∧ ({ f with m.pdfVersion := 5 } : Fpdf).m.pdfVersion < 4) := fun h => by have := h.2; simp at this
    rw [if_neg e]
    refine ⟨by show f.m.pdfVersion ≤ 5; omega, fun _ => Nat.le_refl _, fun _ => by show 4 ≤ 5; omega, fun h => ?_⟩
    rw [h] at h1; simp at h1
  · rw [if_neg h1]
    by_cases h2 : f.r.blendMap.length > 0 ∧ f.m.pdfVersion < 4
    · rw [if_pos h2]
      refine ⟨by show f.m.pdfVersion ≤ 4; omega, fun h => ?_, fun _ => Nat.le_refl _, fun _ h => ?_⟩
      · have := List.length_pos_of_ne_nil h; omega
      · rw [h] at h2; simp at h2
    · rw [if_neg h2]
      refine ⟨Nat.le_refl _, fun h => ?_, fun h => ?_, fun _ _ => rfl⟩
      · have := List.length_pos_of_ne_nil h; omega
      · have := List.length_pos_of_ne_nil h; omega

/-- **C22** A document with a layer declares at least version 1.5. -/
theorem C22_layers (E : Ext) (o u s : Bytes) (sz : Size) (f0 f : Fpdf) (cb : Cb) (wf : Bool) (name : Bytes) (visible : Bool)
    (h0 : Reach E pagesFirst (Fpdf.new o u s sz) f0) (hf : Reach E pagesFirst (f0.exec E {} (.addLayer name visible)) f)
    (hcb : CbReach E pagesFirst cb) (hok : errOf E cb f wf = none) (hsize : (fileOf E cb f wf).length < 10 ^ 10) :
    ∃ version items root info, IsPdf (fileOf E cb f wf) [] version items root info ∧ 5 ≤ version := by
  have h2 := (setup_step h0 (.addLayer name visible) rfl (by simp)).trans hf
  obtain ⟨last, v, A, P, M, T, d, items, hp, hb⟩ := printed_pf h2 hcb hok
  have hpdf := hp.written.pdf hsize
  rw [hb] at hpdf
  refine ⟨v, items, _, _, hpdf, ?_⟩
  rw [hp.written.ver]
  refine (putheader_ver last).2.1 (fun e => ?_)
  have := (layers_last pagesFirst_open hf hcb hp).list
  rw [e] at this
  have := List.prefix_nil.1 this
  have e : (f0.exec E {} (.addLayer name visible)).layer.list = f0.layer.list ++ [{ name := name, visible := visible }] := rfl
  rw [e] at this
  simp at this

/-- **C22** A document in which `SetAlpha` was called declares at least version 1.4. -/
theorem C22_alpha (E : Ext) (o u s : Bytes) (sz : Size) (f0 f : Fpdf) (cb : Cb) (wf : Bool) (alpha : Rat) (mode : Bytes) (cb0 : Cb)
    (h0 : Reach E pagesFirst (Fpdf.new o u s sz) (f0.exec E cb0 (.setAlpha alpha mode))) (hf : Reach E pagesFirst (f0.exec E cb0 (.setAlpha alpha mode)) f)
    (hcb : CbReach E pagesFirst cb) (hok : errOf E cb f wf = none) (hsize : (fileOf E cb f wf).length < 10 ^ 10) :
    ∃ version items root info, IsPdf (fileOf E cb f wf) [] version items root info ∧ 4 ≤ version := by
  have h2 := h0.trans hf
  obtain ⟨last, v, A, P, M, T, d, items, hp, hb⟩ := printed_pf h2 hcb hok
  have hpdf := hp.written.pdf hsize
  rw [hb] at hpdf
  refine ⟨v, items, _, _, hpdf, ?_⟩
  rw [hp.written.ver]
  exact (putheader_ver last).2.2.1 ((ver_last hf hcb hp).modes ((setAlpha_ver f0 alpha mode).2 (pf_latch hf (ok_err hok))))

/-- **C22** And so does a document with an image that has a soft mask (a PNG image with transparency). -/
theorem C22_image (E : Ext) (o u s : Bytes) (sz : Size) (f0 f : Fpdf) (cb : Cb) (wf : Bool) (name : Bytes) (info : ImageInfo) (hm : info.smask.isSome = true) (hnew : lookup name f0.r.images = none)
    (h0 : Reach E pagesFirst (Fpdf.new o u s sz) f0) (hf : Reach E pagesFirst (f0.exec E {} (.registerImage name (some info))) f)
    (hcb : CbReach E pagesFirst cb) (hok : errOf E cb f wf = none) (hsize : (fileOf E cb f wf).length < 10 ^ 10) :
    ∃ version items root info, IsPdf (fileOf E cb f wf) [] version items root info ∧ 4 ≤ version := by
  have h2 := (setup_step h0 (.registerImage name (some info)) rfl (by simp)).trans hf
  obtain ⟨last, v, A, P, M, T, d, items, hp, hb⟩ := printed_pf h2 hcb hok
  have hpdf := hp.written.pdf hsize
  rw [hb] at hpdf
  refine ⟨v, items, _, _, hpdf, ?_⟩
  rw [hp.written.ver]
  refine Nat.le_trans ?_ (Nat.le_trans (ver_last hf hcb hp).version (putheader_ver last).1)
  have he := pf_latch hf (ok_err hok)
  revert he
  show (f0.registerImage E name (some info)).err = none → 4 ≤ (f0.registerImage E name (some info)).m.pdfVersion
  unfold Fpdf.registerImage
  split
  · next h => exact fun he => absurd he h
  rw [hnew]
  dsimp only
  intro _
  split
  · exact Nat.le_refl 4
  · next h =>
    have : ¬ f0.m.pdfVersion < 4 := fun hlt => h ⟨hm, hlt⟩
    show 4 ≤ f0.m.pdfVersion
    omega

/-! ### C23: the outline in the catalog -/

/-- **C23** The catalog of a document with bookmarks names the root of the outline. -/
theorem C23_in_catalog (E : Ext) (o u s : Bytes) (sz : Size) (f : Fpdf) (cb : Cb) (wf : Bool) (hf : Reach E pagesFirst (Fpdf.new o u s sz) f)
    (hcb : CbReach E pagesFirst cb) (hok : errOf E cb f wf = none) (hsize : (fileOf E cb f wf).length < 10 ^ 10) :
    ∃ version items root info c, IsPdf (fileOf E cb f wf) [] version items root info ∧ IsCatalog items root c ∧
      ((docOf E cb f wf).l.outlines = [] → c.outlines = []) ∧
      ((docOf E cb f wf).l.outlines ≠ [] → ∃ n first last, c.outlines = outlinesEntry n ∧
        (n, Body.plain (B "<</Type /Outlines /First " ++ decimal first ++ B " 0 R\n/Last " ++ decimal last ++ B " 0 R>>\n")) ∈ items) := by
  obtain ⟨last, v, A, P, M, T, d, items, c, base, hp, hn, q1, q2, _, _, q3, q4, _⟩ := catalog_pf hf hcb hok hsize
  refine ⟨v, items, _, _, c, q1, q2, fun h => q3 (hp.fin.outlines.symm.trans h), fun h => ?_⟩
  have h' : last.l.outlines ≠ [] := by rw [← hp.fin.outlines]; exact h
  obtain ⟨b, hb, o1, _⟩ := hp.written.outline hp.state hn hp.fin h
  have q4 := q4 h'
  rw [← hb, ← hp.fin.outlines] at q4
  exact ⟨_, _, _, q4, o1⟩

end Verif.Props
