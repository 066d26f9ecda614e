import Verif.Props.Links
/-
C66: page boxes apply to the page they are set on and to all pages begun later.
-/
namespace Verif.Props
open Verif Verif.Model Verif.Spec Verif.Proof

/-- The page box types of `SetPageBox` and the entries of the page dictionary (ISO 32000-1, 14.11.2) they stand for. -/
def boxTypes : List (String × String) :=
  [("trim", "TrimBox"), ("trimbox", "TrimBox"), ("crop", "CropBox"), ("cropbox", "CropBox"), ("bleed", "BleedBox"), ("bleedbox", "BleedBox"), ("art", "ArtBox"), ("artbox", "ArtBox")]

/-- The box type `t`, in any case, stands for the entry `name`. -/
def StandsFor (t name : Bytes) : Prop := ∃ p ∈ boxTypes, toLower t = B p.1 ∧ name = B p.2

/-- The corners of a page box in points, from the lower left corner of the page. -/
def boxCorners (k : Rat) (pb : PageBox) : List Rat := [pb.x * k, pb.y * k, (pb.x + pb.wd) * k, (pb.y + pb.ht) * k]

/-- Object `obj` is a page dictionary, and besides /MediaBox it has these boxes: names with their rectangles. -/
structure PageBoxes (items : List (Nat × Body)) (obj : Nat) (boxes : List (Bytes × Bytes)) : Prop where
  dict : ∃ media rest, (media = [] ∨ ∃ r, media = B "/MediaBox [" ++ r ++ B "]\n") ∧
    (obj, Body.plain (B "<</Type /Page\n/Parent 1 0 R\n" ++ media ++ boxes.flatMap (fun b => B "/" ++ b.1 ++ B " [" ++ b.2 ++ B "]\n") ++ B "/Resources 2 0 R\n" ++ rest)) ∈ items
  once : (boxes.map (·.1)).Nodup

/-- Programs that do not go back to earlier pages and do not set the box `name` while page `i` or an earlier page is the current one. -/
def boxLeft (name : Bytes) (i : Nat) : Guard :=
  { op := fun f cb op => pagesFirst.op f cb op ∧ (∀ n, op ≠ .setPage n) ∧ ∀ t pb, op = .setPageBox t pb → StandsFor t name → i < f.page, cb := pagesFirst.cb }

/-- Programs that do not go back to earlier pages. -/
def inRow : Guard := { op := fun f cb op => pagesFirst.op f cb op ∧ ∀ n, op ≠ .setPage n, cb := pagesFirst.cb }

theorem boxName_iff (t name : Bytes) : Fpdf.boxName t = some name ↔ StandsFor t name := by
  unfold Fpdf.boxName StandsFor boxTypes
  dsimp only
  generalize toLower t = t
  constructor
  · intro h
    split at h
    · next h1 => rcases h1 with h1 | h1 <;> (cases h; simp [h1])
    · split at h
      · next h1 => rcases h1 with h1 | h1 <;> (cases h; simp [h1])
      · split at h
        · next h1 => rcases h1 with h1 | h1 <;> (cases h; simp [h1])
        · split at h
          · next h1 => rcases h1 with h1 | h1 <;> (cases h; simp [h1])
          · cases h
  · rintro ⟨p, hp, rfl, rfl⟩
    simp only [List.mem_cons, List.not_mem_nil, or_false] at hp
    rcases hp with rfl | rfl | rfl | rfl | rfl | rfl | rfl | rfl <;> decide +kernel

/-- The last page is the selected one. -/
def AtEnd (f : Fpdf) : Prop := f.page + 1 = f.pages.length

/-- The box `name` that page `i` has, or will have if it is begun next. -/
def boxOf (f : Fpdf) (i : Nat) (name : Bytes) : Option PageBox :=
  if i ≤ f.page then lookup name ((lookup i f.p.pageBoxes).getD []) else lookup name f.p.defPageBoxes

/-- What programs that leave the box alone do. -/
def BoxKept (name : Bytes) (i : Nat) (f g : Fpdf) : Prop := AtEnd f → AtEnd g ∧ boxOf g i name = boxOf f i name

theorem beginpage_boxes (f : Fpdf) (o : Bytes) (sz : Size) (he : f.err = none) :
    (f.beginpage o sz).p.pageBoxes = Model.insert (f.page + 1) f.p.defPageBoxes f.p.pageBoxes ∧ (f.beginpage o sz).p.defPageBoxes = f.p.defPageBoxes ∧
      (f.beginpage o sz).page = f.page + 1 ∧ (f.beginpage o sz).pages = f.pages ++ [[]] := by
  unfold Fpdf.beginpage
  rw [if_neg (by simp [he])]
  dsimp only
  generalize Fpdf.orientLetter _ o = ol
  split <;> split <;> exact ⟨rfl, rfl, rfl, rfl⟩

theorem BoxKept.of_eq {name : Bytes} {i : Nat} {f g : Fpdf} (h1 : g.p.pageBoxes = f.p.pageBoxes) (h2 : g.p.defPageBoxes = f.p.defPageBoxes) (h3 : g.pages.length = f.pages.length)
    (h4 : AtEnd f → AtEnd g) : BoxKept name i f g := fun hf => ⟨h4 hf, by
  have hg := h4 hf
  have hp : g.page = f.page := by unfold AtEnd at hf hg; omega
  unfold boxOf
  rw [h1, h2, hp]⟩

theorem boxKept_last (name : Bytes) (i : Nat) (hi : 1 ≤ i) : LastRel (BoxKept name i) where
  trans := fun f g h a b hf => ⟨(b (a hf).1).1, (b (a hf).1).2.trans (a hf).2⟩
  stp := fun f g hb hl hp => by
    have h1 := congrArg (fun f : Fpdf => f.p.pageBoxes) hb
    have h2 := congrArg (fun f : Fpdf => f.p.defPageBoxes) hb
    exact .of_eq h1 h2 hl hp
  fstep := fun f g h => by
    have h1 := congrArg (fun f : Fpdf => f.p.pageBoxes) h.core
    have h2 := congrArg (fun f : Fpdf => f.p.defPageBoxes) h.core
    exact .of_eq h1 h2 h.emits.frm.len (fun e => by unfold AtEnd; rw [frame_page h.emits.frm.frame, h.emits.frm.len]; exact e)
  begin := fun f o sz hf => by
    by_cases he : f.err = none
    swap
    · rw [show f.beginpage o sz = f by unfold Fpdf.beginpage; rw [if_pos he]]
      exact ⟨hf, rfl⟩
    · obtain ⟨h1, h2, h3, h4⟩ := beginpage_boxes f o sz he
      refine ⟨by unfold AtEnd at hf ⊢; rw [h3, h4]; simp [hf], ?_⟩
      unfold boxOf
      rw [h1, h2, h3]
      by_cases h : i ≤ f.page
      · rw [if_pos h, if_pos (by omega), lookup_insert_ne _ _ (by omega)]
      · rw [if_neg h]
        by_cases h' : i = f.page + 1
        · rw [if_pos (by omega), h', lookup_insert_self]; rfl
        · rw [if_neg (by omega)]

theorem boxKept_own (E : Ext) (cb : Cb) (name : Bytes) (i : Nat) (f : Fpdf) (op : Op) (hs : staysOnPage op = true)
    (hb : ∀ t pb, op = .setPageBox t pb → StandsFor t name → i < f.page) : BoxKept name i f (f.exec E cb op) := by
  have hfr := exec_frm E cb f op hs
  have hend : AtEnd f → AtEnd (f.exec E cb op) := fun e => by unfold AtEnd; rw [frame_page hfr.frame, hfr.len]; exact e
  by_cases h : ∃ t pb, op = .setPageBox t pb
  · obtain ⟨t, pb, rfl⟩ := h
    intro hf
    refine ⟨hend hf, ?_⟩
    have hb := hb t pb rfl
    show boxOf (f.setPageBoxRec t pb) i name = _
    unfold Fpdf.setPageBoxRec
    split
    · rfl
    · next nm hnm =>
      rw [← boxName_iff, hnm] at hb
      dsimp only
      by_cases hne : name = nm
      · subst hne
        have hi := hb rfl
        unfold boxOf
        rw [if_pos (show f.page > 0 by omega)]
        dsimp only
        rw [if_pos (by omega), if_pos (by omega), lookup_insert_ne _ _ (by omega)]
      · unfold boxOf
        split
        · dsimp only
          rw [lookup_insert_ne _ _ hne]
          by_cases hip : i = f.page
          · subst hip
            rw [if_pos (Nat.le_refl _), if_pos (Nat.le_refl _), lookup_insert_self]
            simp only [Option.getD_some]
            rw [lookup_insert_ne _ _ hne]
          · rw [lookup_insert_ne _ _ hip]
        · dsimp only
          rw [lookup_insert_ne _ _ hne]
  · refine .of_eq ?_ ?_ hfr.len hend
    · exact foot_get (fun f => f.p.pageBoxes) E cb f op hs (fun f => by cases op <;> first | rfl | exact absurd ⟨_, _, rfl⟩ h)
    · exact foot_get (fun f => f.p.defPageBoxes) E cb f op hs (fun f => by cases op <;> first | rfl | exact absurd ⟨_, _, rfl⟩ h)

theorem helper_noBox {op : Op} (h : helper op = true) (t : Bytes) (pb : PageBox) : op ≠ .setPageBox t pb := by rintro rfl; exact absurd h (by simp [helper])

theorem boxLeft_open (name : Bytes) (i : Nat) : OpenGuard (boxLeft name i) := ⟨fun _ _ _ h => ⟨h.1.1, h.1.2.1⟩, fun _ h => h⟩
theorem inRow_open : OpenGuard inRow := ⟨fun _ _ _ h => ⟨h.1.1, h.1.2.1⟩, fun _ h => h⟩

theorem boxLeft_pf {E : Ext} {name : Bytes} {i : Nat} {f g : Fpdf} (h : Reach E (boxLeft name i) f g) : Reach E pagesFirst f g := Reach.mono (G := boxLeft name i) (H := pagesFirst) (fun _ _ _ h => h.1) (fun _ h => h) h
theorem inRow_pf {E : Ext} {f g : Fpdf} (h : Reach E inRow f g) : Reach E pagesFirst f g := Reach.mono (G := inRow) (H := pagesFirst) (fun _ _ _ h => h.1) (fun _ h => h) h
theorem CbReach.boxLeft {E : Ext} {name : Bytes} {i : Nat} {cb : Cb} (h : CbReach E (Props.boxLeft name i) cb) : CbReach E pagesFirst cb :=
  ⟨fun a ha s hs => boxLeft_pf (h.header a ha s hs), fun a ha b s hs => boxLeft_pf (h.footer a ha b s hs), fun s => boxLeft_pf (h.accept s)⟩

theorem atEnd_last : LastRel (fun f g => AtEnd f → AtEnd g) where
  trans := fun f g h a b hf => b (a hf)
  stp := fun f g _ hl hp hf => hp hf
  fstep := fun f g h e => by unfold AtEnd; rw [frame_page h.emits.frm.frame, h.emits.frm.len]; exact e
  begin := fun f o sz hf => ((boxKept_last [] 1 (Nat.le_refl 1)).begin f o sz hf).1

theorem inRow_end {E : Ext} {f g : Fpdf} (h : Reach E inRow f g) : AtEnd f → AtEnd g :=
  have own : ∀ (cb : Cb) (f : Fpdf) (op : Op), staysOnPage op = true → AtEnd f → AtEnd (f.exec E cb op) := fun cb f op hs e => by
    have hfr := exec_frm E cb f op hs
    unfold AtEnd; rw [frame_page hfr.frame, hfr.len]; exact e
  (atEnd_last.reach inRow_open (fun cb f op ho => own cb f op (helper_stays ho)) (fun f cb op _ hs => own cb f op hs) (fun f cb n h => absurd rfl (h.2 n)) h).2

/-- No box is recorded twice for a page. -/
def BoxesOnce (f : Fpdf) : Prop := (keys f.p.defPageBoxes).Nodup ∧ ∀ p ∈ f.p.pageBoxes, (keys p.2).Nodup

theorem keys_insert_mem {α β : Type} [DecidableEq α] (a : α) (v : β) (m : List (α × β)) (x : α) : x ∈ keys (Model.insert a v m) ↔ x = a ∨ x ∈ keys m := by
  induction m with
  | nil => simp [Model.insert, keys]
  | cons p r ih =>
    obtain ⟨c, w⟩ := p
    unfold Model.insert
    unfold keys at ih ⊢
    split
    · next hc => subst hc; simp
    · simp only [List.map_cons, List.mem_cons, ih]
      tauto

theorem keys_insert_nodup {α β : Type} [DecidableEq α] (a : α) (v : β) (m : List (α × β)) (h : (keys m).Nodup) : (keys (Model.insert a v m)).Nodup := by
  induction m with
  | nil => simp [Model.insert, keys]
  | cons p r ih =>
    obtain ⟨c, w⟩ := p
    have h' : c ∉ keys r ∧ (keys r).Nodup := by simpa [keys] using h
    unfold Model.insert
    split
    · simpa [keys] using h
    · next hc =>
      show ((c :: keys (Model.insert a v r)) : List α).Nodup
      refine List.nodup_cons.mpr ⟨fun hm => ?_, ih h'.2⟩
      rcases (keys_insert_mem a v r c).mp hm with h1 | h1
      · exact hc h1
      · exact h'.1 h1

theorem insert_all {α β : Type} [DecidableEq α] (q : β → Prop) (a : α) (v : β) (m : List (α × β)) (hv : q v) (h : ∀ p ∈ m, q p.2) : ∀ p ∈ Model.insert a v m, q p.2 := by
  induction m with
  | nil => intro p hp; simp [Model.insert] at hp; rw [hp]; exact hv
  | cons p r ih =>
    obtain ⟨c, w⟩ := p
    unfold Model.insert
    split
    · intro p hp
      rcases List.mem_cons.mp hp with rfl | hp
      · exact hv
      · exact h p (List.mem_cons_of_mem _ hp)
    · intro p hp
      rcases List.mem_cons.mp hp with rfl | hp
      · exact h _ List.mem_cons_self
      · exact ih (fun p hp => h p (List.mem_cons_of_mem _ hp)) p hp

theorem lookup_pair_mem {α β : Type} [DecidableEq α] {a : α} {v : β} {m : List (α × β)} (h : lookup a m = some v) : (a, v) ∈ m := by
  induction m with
  | nil => simp [lookup] at h
  | cons p r ih =>
    obtain ⟨c, w⟩ := p
    unfold lookup at h
    split at h
    · next hc => cases h; simp [hc]
    · exact List.mem_cons_of_mem _ (ih h)

theorem boxes_nodup {f : Fpdf} (h : BoxesOnce f) (i : Nat) : (keys ((lookup i f.p.pageBoxes).getD [])).Nodup := by
  cases e : lookup i f.p.pageBoxes with
  | none => simp [keys]
  | some b => exact h.2 _ (lookup_pair_mem e)

theorem BoxesOnce.of_eq {f g : Fpdf} (h1 : g.p.pageBoxes = f.p.pageBoxes) (h2 : g.p.defPageBoxes = f.p.defPageBoxes) (h : BoxesOnce f) : BoxesOnce g := by unfold BoxesOnce; rw [h1, h2]; exact h

theorem boxesOnce_fine : FineRel (fun f g => BoxesOnce f → BoxesOnce g) where
  trans := fun f g h a b hf => b (a hf)
  stp := fun f g hb _ => by
    have h1 := congrArg (fun f : Fpdf => f.p.pageBoxes) hb
    have h2 := congrArg (fun f : Fpdf => f.p.defPageBoxes) hb
    exact .of_eq h1 h2
  fstep := fun f g h => by
    have h1 := congrArg (fun f : Fpdf => f.p.pageBoxes) h.core
    have h2 := congrArg (fun f : Fpdf => f.p.defPageBoxes) h.core
    exact .of_eq h1 h2
  begin := fun f o sz hf => by
    by_cases he : f.err = none
    swap
    · rw [show f.beginpage o sz = f by unfold Fpdf.beginpage; rw [if_pos he]]
      exact hf
    · obtain ⟨h1, h2, h3, h4⟩ := beginpage_boxes f o sz he
      unfold BoxesOnce
      rw [h1, h2]
      exact ⟨hf.1, insert_all (fun b => (keys b).Nodup) _ _ _ hf.1 hf.2⟩

theorem boxesOnce_own (E : Ext) (cb : Cb) (f : Fpdf) (op : Op) (hs : staysOnPage op = true) : BoxesOnce f → BoxesOnce (f.exec E cb op) := by
  by_cases h : ∃ t pb, op = .setPageBox t pb
  · obtain ⟨t, pb, rfl⟩ := h
    intro hf
    show BoxesOnce (f.setPageBoxRec t pb)
    unfold Fpdf.setPageBoxRec
    split
    · exact hf
    · dsimp only
      refine ⟨keys_insert_nodup _ _ _ (by split <;> exact hf.1), ?_⟩
      split
      · exact insert_all (fun b => (keys b).Nodup) _ _ _ (keys_insert_nodup _ _ _ (boxes_nodup hf _)) hf.2
      · exact hf.2
  · exact .of_eq (foot_get (fun f => f.p.pageBoxes) E cb f op hs (fun f => by cases op <;> first | rfl | exact absurd ⟨_, _, rfl⟩ h))
      (foot_get (fun f => f.p.defPageBoxes) E cb f op hs (fun f => by cases op <;> first | rfl | exact absurd ⟨_, _, rfl⟩ h))

theorem new_noBoxes (o u s : Bytes) (sz : Size) : (Fpdf.new o u s sz).p.pageBoxes = [] ∧ (Fpdf.new o u s sz).p.defPageBoxes = [] := by
  unfold Fpdf.new
  dsimp only
  split
  · exact ⟨rfl, rfl⟩
  · split
    · exact ⟨rfl, rfl⟩
    · split
      · exact ⟨rfl, rfl⟩
      · rw [display_default]
        exact ⟨rfl, rfl⟩

theorem new_atEnd (o u s : Bytes) (sz : Size) : AtEnd (Fpdf.new o u s sz) := by
  unfold AtEnd
  have h1 : (Fpdf.new o u s sz).page = 0 := new_get (fun f : Fpdf => f.page) (fun _ => rfl) o u s sz
  have h2 : (Fpdf.new o u s sz).pages = [[]] := new_get (fun f : Fpdf => f.pages) (fun _ => rfl) o u s sz
  rw [h1, h2]; rfl

theorem lookup_none_of_keys {α β : Type} [DecidableEq α] {a : α} {m : List (α × β)} (h : lookup a m = none) : a ∉ keys m := by
  induction m with
  | nil => simp [keys]
  | cons p r ih =>
    obtain ⟨c, w⟩ := p
    unfold lookup at h
    split at h
    · cases h
    · next hc =>
      simp only [keys, List.map_cons, List.mem_cons, not_or]
      exact ⟨Ne.symm hc, ih h⟩

theorem lookup_some_keys {α β : Type} [DecidableEq α] {a : α} {v : β} {m : List (α × β)} (h : lookup a m = some v) : a ∈ keys m :=
  List.mem_map.mpr ⟨_, lookup_pair_mem h, rfl⟩

/-- The entries written for the boxes of a page. -/
def boxEntries (boxes : List (Bytes × PageBox)) (ks : List Bytes) : List (Bytes × Bytes) :=
  ks.filterMap fun t => (lookup t boxes).map fun pb => (t, spaced ([pb.x, pb.y, pb.wd, pb.ht].map (fmtF 2)))

theorem boxesText_entries (boxes : List (Bytes × PageBox)) (ks : List Bytes) :
    boxesText boxes ks = (boxEntries boxes ks).flatMap (fun b => B "/" ++ b.1 ++ B " [" ++ b.2 ++ B "]\n") := by
  induction ks with
  | nil => rfl
  | cons t r ih =>
    have e1 : boxesText boxes (t :: r) = (match lookup t boxes with | some pb => boxText t pb | none => []) ++ boxesText boxes r := rfl
    rw [e1, ih]
    unfold boxEntries
    rw [List.filterMap_cons]
    cases lookup t boxes with
    | none => rfl
    | some pb =>
      simp only [Option.map_some, List.flatMap_cons]
      congr 1
      unfold boxText
      simp only [List.map_cons, List.map_nil, spaced, List.append_assoc]

theorem boxEntries_fst (boxes : List (Bytes × PageBox)) (ks : List Bytes) : ((boxEntries boxes ks).map (·.1)).Sublist ks := by
  induction ks with
  | nil => exact List.Sublist.slnil
  | cons t r ih =>
    unfold boxEntries at ih ⊢
    rw [List.filterMap_cons]
    cases lookup t boxes with
    | none => exact ih.cons t
    | some pb => exact ih.cons_cons t

theorem boxEntries_mem {boxes : List (Bytes × PageBox)} {ks : List Bytes} {t n : Bytes} (h : (t, n) ∈ boxEntries boxes ks) : ∃ pb, lookup t boxes = some pb := by
  unfold boxEntries at h
  rw [List.mem_filterMap] at h
  obtain ⟨t', _, h⟩ := h
  cases e : lookup t' boxes with
  | none => rw [e] at h; cases h
  | some pb => rw [e] at h; cases h; exact ⟨pb, e⟩

/-- The boxes of page `i` of the file. -/
theorem boxes_file {E : Ext} {cb' : Cb} {o u s : Bytes} {sz : Size} {f : Fpdf} {wf : Bool} {i : Nat} (hi : 1 ≤ i) (h : Reach E pagesFirst (Fpdf.new o u s sz) f)
    (hcb : CbReach E pagesFirst cb') (hok : errOf E cb' f wf = none) (hsize : (fileOf E cb' f wf).length < 10 ^ 10) (hlast : i ≤ (docOf E cb' f wf).page) :
    ∃ last v A P M T d items root info kids rest, Printed E cb' f (docOf E cb' f wf) last (fileOf E cb' f wf) v A P M T d items ∧ IsPdf (fileOf E cb' f wf) [] v items root info ∧
      PageTree items kids rest ∧ PageBoxes items (kids.getD (i - 1) 0) (boxEntries ((lookup i last.p.pageBoxes).getD []) (E.ord (1000 + i) (keys ((lookup i last.p.pageBoxes).getD [])))) := by
  obtain ⟨last, v, A, P, M, T, d, items, hp, hb⟩ := printed_pf h hcb hok
  have hpdf := hp.written.pdf hsize
  rw [hb] at hpdf
  have hpage := hp.fin.page
  obtain ⟨annots, group, hmem, _⟩ := hp.written.pageExact hp.state hp.fin (i - 1) (by omega)
  rw [show i - 1 + 1 = i by omega] at hmem
  have hpb : (docOf E cb' f wf).p.pageBoxes = last.p.pageBoxes := congrArg (fun p : PageSt => p.pageBoxes) hp.fin.p
  have honce : BoxesOnce last := (last_fine (G := pagesFirst) pagesFirst_open boxesOnce_fine (fun cb f op ho => boxesOnce_own E cb f op (helper_stays ho))
    (fun f cb op _ hs => boxesOnce_own E cb f op hs) h hcb hp.eq hp.page1) (by unfold BoxesOnce; rw [(new_noBoxes o u s sz).1, (new_noBoxes o u s sz).2]; simp [keys])
  rw [hpb] at hmem
  refine ⟨last, v, A, P, M, T, d, items, _, _, _, _, hp, hpdf, hp.written.pageTree, ⟨⟨mediaText (docOf E cb' f wf).p.pageSizes i, annots ++ group ++ (B "/Contents " ++ natDec (3 + A.length + 2 * (i - 1) + 1) ++ B " 0 R>>\n"), ?_, ?_⟩, ?_⟩⟩
  · unfold mediaText
    split
    · next sz' _ => exact .inr ⟨B "0 0 " ++ (fmtF 2 sz'.wd ++ (B " " ++ fmtF 2 sz'.ht)), by simp only [List.append_assoc]; rfl⟩
    · exact .inl rfl
  · rw [show ((List.range last.page).map fun i => 3 + A.length + 2 * i).getD (i - 1) 0 = 3 + A.length + 2 * (i - 1) by
      rw [List.getD_eq_getElem?_getD, List.getElem?_map, List.getElem?_range (by omega)]; rfl]
    rw [← boxesText_entries]
    simp only [List.append_assoc] at hmem ⊢
    exact hmem
  · exact ((E.ord_perm _ _).nodup_iff.mpr (boxes_nodup honce i)).sublist (boxEntries_fst _ _)

/-- **C66** After `SetPageBox`, the current page and every page begun later have the box asked for, until the box is set again: page `i`, where `i` is the current page or a later one, has the entry in its
dictionary if the box is not set again before page `i` is finished. The rectangle has the corners asked for, in points. (The header and footer functions and the rest of the program may do anything else
but go back to earlier pages.) -/
theorem C66_box (E : Ext) (cb cb' : Cb) (o u s : Bytes) (sz : Size) (f0 f : Fpdf) (wf : Bool) (t name : Bytes) (pb : PageBox) (i : Nat) (hname : StandsFor t name)
    (h0 : Reach E inRow (Fpdf.new o u s sz) f0) (hi : 1 ≤ i) (hi0 : f0.page ≤ i) (hf : Reach E (boxLeft name i) (f0.exec E cb (.setPageBox t pb)) f)
    (hcb : CbReach E (boxLeft name i) cb') (hok : errOf E cb' f wf = none) (hsize : (fileOf E cb' f wf).length < 10 ^ 10) (hlast : i ≤ (docOf E cb' f wf).page) :
    ∃ version items root info kids rest boxes rect, IsPdf (fileOf E cb' f wf) [] version items root info ∧ PageTree items kids rest ∧
      PageBoxes items (kids.getD (i - 1) 0) boxes ∧ (name, rect) ∈ boxes ∧ Numbers 2 rect (boxCorners f0.k pb) := by
  have h1 : Reach E pagesFirst (Fpdf.new o u s sz) (f0.exec E {} (.setPageBox t pb)) :=
    Reach.step (.setPageBox t pb) {} (inRow_pf h0) ⟨by simp, by simp, by simp, fun _ => rfl⟩ (by simp) (by simp) (fun s => Reach.refl s)
  obtain ⟨last, v, A, P, M, T, d, items, root, info, kids, rest, hp, hpdf, htree, hboxes⟩ := boxes_file hi (h1.trans (boxLeft_pf hf)) (CbReach.boxLeft hcb) hok hsize hlast
  have hend : AtEnd (f0.exec E cb (.setPageBox t pb)) := by
    have e := inRow_end h0 (new_atEnd o u s sz)
    have hfr := exec_frm E cb f0 (.setPageBox t pb) rfl
    unfold AtEnd; rw [frame_page hfr.frame, hfr.len]; exact e
  have hset : boxOf (f0.exec E cb (.setPageBox t pb)) i name = some { x := pb.x * f0.k, y := pb.y * f0.k, wd := pb.wd * f0.k + pb.x * f0.k, ht := pb.ht * f0.k + pb.y * f0.k } := by
    show boxOf (f0.setPageBoxRec t pb) i name = _
    unfold Fpdf.setPageBoxRec
    rw [(boxName_iff t name).mpr hname]
    dsimp only
    unfold boxOf
    split
    · dsimp only
      by_cases e : i = f0.page
      · subst e
        rw [if_pos (Nat.le_refl _), lookup_insert_self]
        simp only [Option.getD_some]
        rw [lookup_insert_self]
      · rw [if_neg (by omega), lookup_insert_self]
    · dsimp only
      rw [if_neg (by omega), lookup_insert_self]
  have hk := last_last (boxLeft_open name i) (boxKept_last name i hi) (fun cb f op ho => boxKept_own E cb name i f op (helper_stays ho) (fun t pb e => absurd e (helper_noBox ho t pb)))
    (fun f cb op hg hs => boxKept_own E cb name i f op hs hg.2.2) (fun f cb n h => absurd rfl (h.2.1 n)) hf hcb hp.eq hp.page1 hend
  rw [hset] at hk
  have hk2 := hk.2
  unfold boxOf at hk2
  rw [if_pos (by have := hp.fin.page; omega)] at hk2
  refine ⟨v, items, root, info, kids, rest, _, _, hpdf, htree, hboxes, ?_, numbers_fmt 2 _⟩
  unfold boxEntries
  rw [List.mem_filterMap]
  refine ⟨name, (E.ord_perm _ _).mem_iff.mpr (lookup_some_keys hk2), ?_⟩
  rw [hk2]
  unfold boxCorners
  simp only [Option.map_some]
  rw [show pb.wd * f0.k + pb.x * f0.k = (pb.x + pb.wd) * f0.k by ring, show pb.ht * f0.k + pb.y * f0.k = (pb.y + pb.ht) * f0.k by ring]

/-- **C66** A page has no box that was not set while it, or an earlier page, or none, was the current page. -/
theorem C66_only (E : Ext) (cb' : Cb) (o u s : Bytes) (sz : Size) (f : Fpdf) (wf : Bool) (name : Bytes) (i : Nat) (hi : 1 ≤ i) (hf : Reach E (boxLeft name i) (Fpdf.new o u s sz) f)
    (hcb : CbReach E (boxLeft name i) cb') (hok : errOf E cb' f wf = none) (hsize : (fileOf E cb' f wf).length < 10 ^ 10) (hlast : i ≤ (docOf E cb' f wf).page) :
    ∃ version items root info kids rest boxes, IsPdf (fileOf E cb' f wf) [] version items root info ∧ PageTree items kids rest ∧
      PageBoxes items (kids.getD (i - 1) 0) boxes ∧ ∀ rect, (name, rect) ∉ boxes := by
  obtain ⟨last, v, A, P, M, T, d, items, root, info, kids, rest, hp, hpdf, htree, hboxes⟩ := boxes_file hi (boxLeft_pf hf) (CbReach.boxLeft hcb) hok hsize hlast
  have hk := last_last (boxLeft_open name i) (boxKept_last name i hi) (fun cb f op ho => boxKept_own E cb name i f op (helper_stays ho) (fun t pb e => absurd e (helper_noBox ho t pb)))
    (fun f cb op hg hs => boxKept_own E cb name i f op hs hg.2.2) (fun f cb n h => absurd rfl (h.2.1 n)) hf hcb hp.eq hp.page1 (new_atEnd o u s sz)
  have hk2 := hk.2
  unfold boxOf at hk2
  rw [if_pos (by have := hp.fin.page; omega), (new_noBoxes o u s sz).1, (new_noBoxes o u s sz).2] at hk2
  have hk3 : lookup name ((lookup i last.p.pageBoxes).getD []) = none := by rw [hk2]; simp [lookup]
  refine ⟨v, items, root, info, kids, rest, _, hpdf, htree, hboxes, fun rect hm => ?_⟩
  obtain ⟨pb, hpb⟩ := boxEntries_mem hm
  rw [hk3] at hpb
  cases hpb

/-- **C66** A box type that is not documented is refused, and nothing else happens. -/
theorem C66_refused (E : Ext) (cb : Cb) (f : Fpdf) (t : Bytes) (pb : PageBox) (h : ¬ ∃ name, StandsFor t name) : ∃ e, f.exec E cb (.setPageBox t pb) = { f with err := some e } := by
  show ∃ e, f.setPageBoxRec t pb = _
  unfold Fpdf.setPageBoxRec
  cases e : Fpdf.boxName t with
  | none => exact ⟨_, rfl⟩
  | some nm => exact absurd ⟨nm, (boxName_iff t nm).mp e⟩ h

/-! ### Non-vacuity -/

/-- `boxLeft` as a check. -/
def blB (name : Bytes) (i : Nat) (f : Fpdf) (op : Op) : Bool :=
  pfB f op && (match op with | .setPage _ => false | .setPageBox t _ => decide (Fpdf.boxName t ≠ some name ∨ i < f.page) | _ => true)

theorem blB_ok (name : Bytes) (i : Nat) (f : Fpdf) (op : Op) (h : blB name i f op = true) : (boxLeft name i).op f {} op := by
  unfold blB at h
  rw [Bool.and_eq_true] at h
  refine ⟨pfB_ok f op h.1, ?_, ?_⟩
  · rintro n rfl; simp at h
  · rintro t pb rfl hs
    have h2 := h.2
    simp only [decide_eq_true_eq] at h2
    exact h2.resolve_left (fun hne => hne ((boxName_iff t name).mpr hs))

/-- `inRow` as a check. -/
def rowB (f : Fpdf) (op : Op) : Bool := pfB f op && (match op with | .setPage _ => false | _ => true)

theorem rowB_ok (f : Fpdf) (op : Op) (h : rowB f op = true) : inRow.op f {} op := by
  unfold rowB at h
  rw [Bool.and_eq_true] at h
  refine ⟨pfB_ok f op h.1, ?_⟩
  rintro n rfl; simp at h

/-- A document with one page. -/
def boxed0 : Fpdf := after (Fpdf.new [] (B "mm") (B "A4") {}) [.setPageBox (B "crop") { x := 5, y := 5, wd := 200, ht := 287 }, .addPage]

/-- It goes on: a trim box, two more pages, another trim box on the third. -/
def boxed1 : Fpdf := after (boxed0.exec {} {} (.setPageBox (B "TrimBox") { x := 10, y := 10, wd := 190, ht := 277 })) [.addPage, .line 1 2 3 4, .addPage, .setPageBox (B "trim") { x := 20, y := 10, wd := 100, ht := 200 }]

/-- The hypotheses of C66 are met: page 2 has the first trim box, and no art box. -/
example : StandsFor (B "TrimBox") (B "TrimBox") ∧ Reach {} inRow (Fpdf.new [] (B "mm") (B "A4") {}) boxed0 ∧ boxed0.page ≤ 2 ∧
    Reach {} (boxLeft (B "TrimBox") 2) (boxed0.exec {} {} (.setPageBox (B "TrimBox") { x := 10, y := 10, wd := 190, ht := 277 })) boxed1 ∧
    errOf {} {} boxed1 false = none ∧ (fileOf {} {} boxed1 false).length < 10 ^ 10 ∧ 2 ≤ (docOf {} {} boxed1 false).page := by
  refine ⟨⟨("trimbox", "TrimBox"), by decide, by decide +kernel, rfl⟩, ?_, ?_, ?_, ?_, ?_, ?_⟩
  · exact reach_after (G := inRow) (ok := rowB) rowB_ok _ _ _ (Reach.refl _) (by decide +kernel)
  · decide +kernel
  · exact reach_after (G := boxLeft (B "TrimBox") 2) (ok := blB (B "TrimBox") 2) (blB_ok _ _) _ _ _ (Reach.refl _) (by decide +kernel)
  all_goals decide +kernel

example : Reach {} (boxLeft (B "ArtBox") 2) (Fpdf.new [] (B "mm") (B "A4") {}) boxed0 ∧ ¬ ∃ name, StandsFor (B "media") name := by
  refine ⟨reach_after (G := boxLeft (B "ArtBox") 2) (ok := blB (B "ArtBox") 2) (blB_ok _ _) _ _ _ (Reach.refl _) (by decide +kernel), ?_⟩
  rintro ⟨name, h⟩
  rw [← boxName_iff] at h
  exact absurd h (by rw [show Fpdf.boxName (B "media") = none by decide +kernel]; simp)

end Verif.Props
