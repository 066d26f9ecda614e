import Verif.Proof.Images
import Verif.Proof.Alias
import Verif.Proof.Apart
import Verif.Proof.Closure
import Mathlib.Tactic.ByContra
/-
Writing a document when Go goes through its maps in another order.
-/
namespace Verif.Proof
open Verif Verif.Model Verif.Spec

/-- The same outside world, but Go goes through maps in the order `o`. -/
def _root_.Verif.Model.Ext.reordered (E : Ext) (o : Nat → List Bytes → List Bytes) (h : ∀ s l, (o s l).Perm l) : Ext := { E with ord := o, ord_perm := h }

/-! ### Sorted lists -/

theorem u8_lt_or (a b : UInt8) : a < b ∨ a = b ∨ b < a := by
  rcases Nat.lt_trichotomy a.toNat b.toNat with h | h | h
  · exact .inl (UInt8.lt_iff_toNat_lt.mpr h)
  · exact .inr (.inl (UInt8.toNat_inj.mp h))
  · exact .inr (.inr (UInt8.lt_iff_toNat_lt.mpr h))

theorem bytesLe_total : ∀ a b : Bytes, (bytesLe a b || bytesLe b a) = true
  | [], _ => by simp [bytesLe]
  | _ :: _, [] => by simp [bytesLe]
  | a :: r, b :: s => by
    have ih := bytesLe_total r s
    rcases u8_lt_or a b with h | rfl | h
    · simp [bytesLe, h]
    · simpa [bytesLe] using ih
    · simp [bytesLe, h]

theorem u8_lt_irrefl (a : UInt8) : ¬ a < a := fun h => Nat.lt_irrefl _ (UInt8.lt_iff_toNat_lt.mp h)
theorem u8_lt_trans {a b c : UInt8} (h1 : a < b) (h2 : b < c) : a < c := UInt8.lt_iff_toNat_lt.mpr (Nat.lt_trans (UInt8.lt_iff_toNat_lt.mp h1) (UInt8.lt_iff_toNat_lt.mp h2))

theorem bytesLe_trans : ∀ a b c : Bytes, bytesLe a b = true → bytesLe b c = true → bytesLe a c = true
  | [], _, _ => fun _ _ => rfl
  | _ :: _, [], _ => fun h => by simp [bytesLe] at h
  | _ :: _, _ :: _, [] => fun _ h => by simp [bytesLe] at h
  | a :: r, b :: s, c :: t => by
    intro h1 h2
    simp only [bytesLe, Bool.or_eq_true, decide_eq_true_eq, Bool.and_eq_true, beq_iff_eq] at h1 h2 ⊢
    rcases h1 with h1 | ⟨rfl, h1⟩ <;> rcases h2 with h2 | ⟨rfl, h2⟩
    · exact .inl (u8_lt_trans h1 h2)
    · exact .inl h1
    · exact .inl h2
    · exact .inr ⟨rfl, bytesLe_trans r s t h1 h2⟩

theorem bytesLe_antisymm : ∀ a b : Bytes, bytesLe a b = true → bytesLe b a = true → a = b
  | [], [] => fun _ _ => rfl
  | [], _ :: _ => fun _ h => by simp [bytesLe] at h
  | _ :: _, [] => fun h => by simp [bytesLe] at h
  | a :: r, b :: s => by
    intro h1 h2
    simp only [bytesLe, Bool.or_eq_true, decide_eq_true_eq, Bool.and_eq_true, beq_iff_eq] at h1 h2
    rcases h1 with h1 | ⟨rfl, h1⟩
    · rcases h2 with h2 | ⟨rfl, _⟩
      · exact absurd (u8_lt_trans h1 h2) (u8_lt_irrefl a)
      · exact absurd h1 (u8_lt_irrefl _)
    · rcases h2 with h2 | ⟨_, h2⟩
      · exact absurd h2 (u8_lt_irrefl _)
      · rw [bytesLe_antisymm r s h1 h2]

/-- Going through two sorted arrangements of the same list gives the same, if the order of elements that compare equal does not matter. -/
theorem foldl_tied {α σ} (le : α → α → Bool) (F : σ → α → σ) (Inv : σ → Prop) (hI : ∀ s a, Inv s → Inv (F s a))
    (l1 : List α) : ∀ (l2 : List α) (s : σ), Inv s → l1.Perm l2 → l1.Pairwise (fun a b => le a b = true) → l2.Pairwise (fun a b => le a b = true) →
      (∀ s a b, Inv s → a ∈ l1 → b ∈ l1 → le a b = true → le b a = true → F (F s a) b = F (F s b) a) → l1.foldl F s = l2.foldl F s := by
  have swap : ∀ (a : α) (s1 : List α) (s : σ), Inv s → (∀ s b, Inv s → b ∈ s1 → F (F s a) b = F (F s b) a) → s1.foldl F (F s a) = F (s1.foldl F s) a := by
    intro a s1
    induction s1 with
    | nil => intro s _ _; rfl
    | cons b s1 ih =>
      intro s hs h
      rw [List.foldl_cons, List.foldl_cons, h s b hs (by simp)]
      exact ih _ (hI _ _ hs) (fun s b' hs hb => h s b' hs (by simp [hb]))
  induction l1 with
  | nil => intro l2 s _ hp _ _ _; rw [hp.symm.eq_nil]
  | cons a t ih =>
    intro l2 s hs hp h1 h2 hc
    obtain ⟨s1, s2, rfl⟩ := List.append_of_mem (hp.subset (List.mem_cons_self))
    have hp' : t.Perm (s1 ++ s2) := by
      have := hp.trans List.perm_middle
      exact List.Perm.cons_inv this
    obtain ⟨h1a, h1t⟩ := List.pairwise_cons.1 h1
    obtain ⟨q1, q2, q3⟩ := List.pairwise_append.1 h2
    have h2' : (s1 ++ s2).Pairwise (fun a b => le a b = true) := List.pairwise_append.2 ⟨q1, (List.pairwise_cons.1 q2).2, fun x hx y hy => q3 x hx y (by simp [hy])⟩
    have hmem : ∀ b ∈ s1, b ∈ t := fun b hb => hp'.symm.subset (by simp [hb])
    have e := ih (s1 ++ s2) (F s a) (hI _ _ hs) hp' h1t h2' (fun s a' b hs ha hb => hc s a' b hs (by simp [ha]) (by simp [hb]))
    rw [List.foldl_cons, e, List.foldl_append, List.foldl_append, List.foldl_cons,
      swap a s1 s hs (fun s b hs hb => hc s a b hs (by simp) (by simp [hmem b hb]) (h1a b (hmem b hb)) (q3 b hb a (by simp)))]

theorem sortKeys_sorted {le : Bytes → Bytes → Bool} (ht : ∀ a b c, le a b = true → le b c = true → le a c = true) (hto : ∀ a b, (le a b || le b a) = true) (l : List Bytes) :
    (sortKeys le l).Pairwise (fun a b => le a b = true) := by
  have ins : ∀ (k : Bytes) (l : List Bytes), l.Pairwise (fun a b => le a b = true) → (insertKey le k l).Pairwise (fun a b => le a b = true) := by
    intro k l
    induction l with
    | nil => intro _; exact List.pairwise_singleton _ _
    | cons a r ih =>
      intro hl
      obtain ⟨h1, h2⟩ := List.pairwise_cons.1 hl
      unfold insertKey
      split
      · rename_i hk
        refine List.pairwise_cons.2 ⟨fun x hx => ?_, hl⟩
        rcases List.mem_cons.1 hx with rfl | hx
        · exact hk
        · exact ht _ _ _ hk (h1 x hx)
      · rename_i hk
        have hk' : le a k = true := by
          have := hto a k
          rw [Bool.or_eq_true] at this
          exact this.resolve_right hk
        refine List.pairwise_cons.2 ⟨fun x hx => ?_, ih h2⟩
        rcases List.mem_cons.1 ((insertKey_perm le k r).subset hx) with rfl | hx
        · exact hk'
        · exact h1 x hx
  induction l with
  | nil => exact List.Pairwise.nil
  | cons a r ih => exact ins a _ ih

/-- Sorted by an order that tells all elements apart, two arrangements are the same. -/
theorem sorted_eq (le : Bytes → Bytes → Bool) {l1 l2 : List Bytes} (hp : l1.Perm l2) (ht : ∀ a b c, le a b = true → le b c = true → le a c = true)
    (hto : ∀ a b, (le a b || le b a) = true) (ha : ∀ a b, a ∈ l1 → b ∈ l1 → le a b = true → le b a = true → a = b) : sortKeys le l1 = sortKeys le l2 := by
  have p1 := sortKeys_perm le l1
  have p2 := sortKeys_perm le l2
  have := foldl_tied le (fun (s : List Bytes) a => s ++ [a]) (fun _ => True) (fun _ _ _ => trivial) (sortKeys le l1) (sortKeys le l2) [] trivial ((p1.trans hp).trans p2.symm)
    (sortKeys_sorted ht hto l1) (sortKeys_sorted ht hto l2) (fun s a b _ h1 h2 h3 h4 => by rw [ha a b (p1.mem_iff.1 h1) (p1.mem_iff.1 h2) h3 h4])
  have key : ∀ (l s : List Bytes), l.foldl (fun (s : List Bytes) a => s ++ [a]) s = s ++ l := by
    intro l
    induction l with
    | nil => simp
    | cons x l ih => intro s; rw [List.foldl_cons, ih]; simp
  rw [key, key] at this
  simpa using this

variable {E : Ext} {o : Nat → List Bytes → List Bytes} {h : ∀ s l, (o s l).Perm l}

theorem visit_same (s : Nat) (ks : List Bytes) : visit (E.reordered o h) true s ks bytesLe = visit E true s ks bytesLe :=
  sorted_eq bytesLe ((h s ks).trans (E.ord_perm s ks).symm) bytesLe_trans bytesLe_total (fun a b _ _ => bytesLe_antisymm a b)

/-- Two arrangements of at most one element. -/
theorem ord_short (s : Nat) (ks : List Bytes) (hk : ks.length ≤ 1) : (E.reordered o h).ord s ks = E.ord s ks := by
  show o s ks = E.ord s ks
  have p1 := h s ks
  have p2 := E.ord_perm s ks
  match ks, hk with
  | [], _ => rw [p1.eq_nil, p2.eq_nil]
  | [a], _ => rw [List.perm_singleton.mp p1, List.perm_singleton.mp p2]

/-! ### The stages -/

theorem re_md5 : (E.reordered o h).md5 = E.md5 := rfl
theorem re_sha1 : (E.reordered o h).sha1 = E.sha1 := rfl
theorem re_deflate : (E.reordered o h).deflate = E.deflate := rfl
theorem re_fontFile : (E.reordered o h).fontFile = E.fontFile := rfl
theorem re_cutFont : (E.reordered o h).cutFont = E.cutFont := rfl
theorem re_cidToGid : (E.reordered o h).cidToGid = E.cidToGid := rfl
theorem re_toUnicode : (E.reordered o h).toUnicode = E.toUnicode := rfl
theorem re_creation : (E.reordered o h).creation = E.creation := rfl
theorem re_modified : (E.reordered o h).modified = E.modified := rfl

macro "re_" f:ident : tactic => `(tactic| (unfold $f; simp only [re_md5, re_sha1, re_deflate, re_fontFile, re_cutFont, re_cidToGid, re_toUnicode, re_creation, re_modified]))

theorem writeCompressed_re (f : Fpdf) (c : Bytes) : f.writeCompressedFileObject (E.reordered o h) c = f.writeCompressedFileObject E c := by re_ Fpdf.writeCompressedFileObject
theorem embed_re (f : Fpdf) (a : Attachment) : f.embed (E.reordered o h) a = f.embed E a := by
  unfold Fpdf.embed; simp only [writeCompressed_re, re_md5]
theorem putAttachmentsLoop_re (l : List Attachment) : ∀ (f : Fpdf) (done : List Attachment), f.putAttachmentsLoop (E.reordered o h) done l = f.putAttachmentsLoop E done l := by
  induction l with
  | nil => intro f done; rfl
  | cons a l ih =>
    intro f done
    unfold Fpdf.putAttachmentsLoop
    rw [embed_re]
    exact ih _ _
theorem putAttachments_re (f : Fpdf) : f.putAttachments (E.reordered o h) = f.putAttachments E := by
  unfold Fpdf.putAttachments; rw [putAttachmentsLoop_re]
theorem embedPtr_re (f : Fpdf) (p : Nat) : f.embedPtr (E.reordered o h) p = f.embedPtr E p := by
  unfold Fpdf.embedPtr; simp only [embed_re]
theorem putAnnotationsAttachments_re (f : Fpdf) : f.putAnnotationsAttachments (E.reordered o h) = f.putAnnotationsAttachments E := by
  unfold Fpdf.putAnnotationsAttachments; simp only [embedPtr_re]
theorem sAtt_re (f : Fpdf) : sAtt (E.reordered o h) f = sAtt E f := by
  unfold sAtt; rw [putAttachments_re, putAnnotationsAttachments_re]
theorem layerLoop_re (l : List Layer) : ∀ (f : Fpdf) (done : List Layer), f.layerPutLayersLoop (E.reordered o h) done l = f.layerPutLayersLoop E done l := by
  induction l with
  | nil => intro f done; rfl
  | cons a l ih => intro f done; unfold Fpdf.layerPutLayersLoop; simp only [re_md5]; exact ih _ _
theorem layerPutLayers_re (f : Fpdf) : f.layerPutLayers (E.reordered o h) = f.layerPutLayers E := by
  unfold Fpdf.layerPutLayers; rw [layerLoop_re]
theorem putContent_re (f : Fpdf) (b : Bytes) : f.putContent (E.reordered o h) b = f.putContent E b := by re_ Fpdf.putContent
theorem putFontFile_re : Fpdf.putFontFile (E.reordered o h) = Fpdf.putFontFile E := by funext f k; re_ Fpdf.putFontFile
theorem putUtf8Font_re (f : Fpdf) (d : FontDef) : f.putUtf8Font (E.reordered o h) d = f.putUtf8Font E d := by re_ Fpdf.putUtf8Font
theorem putFont_re (nf : Nat) : Fpdf.putFont (E.reordered o h) nf = Fpdf.putFont E nf := by funext f k; unfold Fpdf.putFont; simp only [putUtf8Font_re]
theorem putImageObj_re (f : Fpdf) (i : ImageInfo) : f.putImageObj (E.reordered o h) i = f.putImageObj E i := by re_ Fpdf.putImageObj
theorem putimage_re (f : Fpdf) (i : ImageInfo) : f.putimage (E.reordered o h) i = f.putimage E i := by unfold Fpdf.putimage; simp only [putImageObj_re, putContent_re]
theorem putjavascript_re (f : Fpdf) : f.putjavascript (E.reordered o h) = f.putjavascript E := by re_ Fpdf.putjavascript
theorem putxmp_re (f : Fpdf) : f.putxmp (E.reordered o h) = f.putxmp E := by re_ Fpdf.putxmp
theorem putInfoEntry_re (f : Fpdf) (k : String) (v : Bytes) : f.putInfoEntry (E.reordered o h) k v = f.putInfoEntry E k v := by re_ Fpdf.putInfoEntry
theorem putinfo_re (f : Fpdf) : f.putinfo (E.reordered o h) = f.putinfo E := by unfold Fpdf.putinfo; simp only [putInfoEntry_re, re_creation, re_modified]
theorem linkAnnot_re (hPt : Rat) : Fpdf.linkAnnot (E.reordered o h) hPt = Fpdf.linkAnnot E hPt := by funext s l; re_ Fpdf.linkAnnot
theorem attachAnnot_re : Fpdf.attachAnnot (E.reordered o h) = Fpdf.attachAnnot E := by funext s l; re_ Fpdf.attachAnnot
theorem putAnnots_re (hPt : Rat) (f : Fpdf) (n : Nat) : f.putAnnots (E.reordered o h) hPt n = f.putAnnots E hPt n := by
  unfold Fpdf.putAnnots; rw [linkAnnot_re, attachAnnot_re]
theorem putOutline_re (n : Nat) : Fpdf.putOutline (E.reordered o h) n = Fpdf.putOutline E n := by funext f x; re_ Fpdf.putOutline
theorem putbookmarks_re (f : Fpdf) : f.putbookmarks (E.reordered o h) = f.putbookmarks E := by unfold Fpdf.putbookmarks; simp only [putOutline_re]

theorem lookup_of_mem {α β : Type} [DecidableEq α] (l : List (α × β)) (h : (l.map (·.1)).Nodup) : ∀ x ∈ l, lookup x.1 l = some x.2 := by
  induction l with
  | nil => intro x hx; cases hx
  | cons y l ih =>
    intro x hx
    obtain ⟨a, b⟩ := y
    rw [List.map_cons, List.nodup_cons] at h
    rcases List.mem_cons.mp hx with rfl | hx
    · simp [lookup]
    · have : a ≠ x.1 := fun e => h.1 (by rw [e]; exact List.mem_map.mpr ⟨x, hx, rfl⟩)
      have := ih h.2 x hx
      simp_all [lookup]
theorem out_keep_m (f : Fpdf) (s : Bytes) : (f.out s).m = f.m := by unfold Fpdf.out; split <;> rfl
theorem out_keep_p (f : Fpdf) (s : Bytes) : (f.out s).p = f.p := by unfold Fpdf.out; split <;> rfl

/-! ### Aliases -/

/-- Whether applying the alias `k` fails. -/
def aliasBad (mode : Bool) (am : List (Bytes × Bytes)) (k : Bytes) : Bool :=
  match lookup k am with
  | none => false
  | some rep => mode && ((utf8toutf16 k).isNone || (utf8toutf16 rep).isNone)

theorem aliasGo_eq (mode : Bool) (f : Fpdf) (k : Bytes) : aliasGo mode f k =
    { f with pages := onPages f.page (fun b => substOne mode f.m.aliasMap b k) f.pages, panicked := f.panicked || aliasBad mode f.m.aliasMap k } := by
  have h := aliasGo_sub mode f k
  have hp : aliasGo mode f k = { f with pages := (aliasGo mode f k).pages, panicked := f.panicked || aliasBad mode f.m.aliasMap k } := by
    unfold aliasGo aliasBad
    cases lookup k f.m.aliasMap with
    | none => simp
    | some rep =>
      cases mode with
      | false => simp
      | true => simp [Fpdf.noteU16, Bool.or_assoc]
  rw [hp, h.pages]

theorem aliasFold_eq (mode : Bool) (ks : List Bytes) : ∀ f : Fpdf, ks.foldl (aliasGo mode) f =
    { f with pages := onPages f.page (fun b => ks.foldl (substOne mode f.m.aliasMap) b) f.pages, panicked := f.panicked || ks.any (aliasBad mode f.m.aliasMap) } := by
  induction ks with
  | nil =>
    intro f
    simp only [List.foldl_nil, onPages_id, List.any_nil, Bool.or_false]
  | cons k ks ih =>
    intro f
    rw [List.foldl_cons, ih, aliasGo_eq]
    simp only [onPages_onPages, List.foldl_cons, List.any_cons, Bool.or_assoc]

/-- The order of the aliases `am` does not matter. -/
def AliasComm (am : List (Bytes × Bytes)) : Prop :=
  ∀ (mode : Bool) (a c z : Bytes), a ∈ keys am → c ∈ keys am → substOne mode am (substOne mode am z a) c = substOne mode am (substOne mode am z c) a

theorem aliasFold_perm (mode : Bool) (f : Fpdf) (hc : AliasComm f.m.aliasMap) {l1 l2 : List Bytes} (hp : l1.Perm l2) (h1 : ∀ a ∈ l1, a ∈ keys f.m.aliasMap) :
    l1.foldl (aliasGo mode) f = l2.foldl (aliasGo mode) f := by
  rw [aliasFold_eq, aliasFold_eq, hp.any_eq]
  have : (fun b => l1.foldl (substOne mode f.m.aliasMap) b) = (fun b => l2.foldl (substOne mode f.m.aliasMap) b) := by
    funext b
    exact hp.foldl_eq' (fun a ha c hc' z => hc mode a c z (h1 a ha) (h1 c hc')) b
  rw [this]

theorem replaceAliases_re (f : Fpdf) (hc : AliasComm f.m.aliasMap) : f.replaceAliases (E.reordered o h) = f.replaceAliases E := by
  rw [replaceAliases_eq, replaceAliases_eq]
  have e1 := aliasFold_perm false f hc ((h 1 (keys f.m.aliasMap)).trans (E.ord_perm 1 (keys f.m.aliasMap)).symm) (fun a ha => (h 1 _).subset ha)
  have e1' : List.foldl (aliasGo false) f ((E.reordered o h).ord 1 (keys f.m.aliasMap)) = List.foldl (aliasGo false) f (E.ord 1 (keys f.m.aliasMap)) := e1
  rw [e1']
  have h1 := aliasFold_sub false (E.ord 1 (keys f.m.aliasMap)) f
  generalize (E.ord 1 (keys f.m.aliasMap)).foldl (aliasGo false) f = g at h1 ⊢
  refine aliasFold_perm true g (by rw [h1.map]; exact hc) ((h 2 _).trans (E.ord_perm 2 _).symm) (fun a ha => (h 2 _).subset ha)

theorem aliased_re (f : Fpdf) (hc : AliasComm (aliasesOf f)) : aliased (E.reordered o h) f = aliased E f := by
  unfold aliased aliasesOf at *
  split at hc
  · rename_i hq
    rw [if_pos hq]
    exact replaceAliases_re _ hc
  · rename_i hq
    rw [if_neg hq]
    exact replaceAliases_re _ hc

theorem aliasComm_short {am : List (Bytes × Bytes)} (hl : am.length ≤ 1) : AliasComm am := by
  intro mode a c z ha hc
  match am, hl with
  | [], _ => cases ha
  | [x], _ =>
    simp only [keys, List.map_cons, List.map_nil, List.mem_singleton] at ha hc
    rw [ha, hc]

theorem aliasComm_bracketed {x y : UInt8} {as : List (Bytes × Bytes)} (hxy : x ≠ y) (hnd : (as.map (·.1)).Nodup) (hb : ∀ p ∈ as, Bracketed x y p.1)
    (hr : ∀ p ∈ as, Harmless x y (as.map (·.1)) p.2) : AliasComm as := by
  intro mode a c z ha hc
  obtain ⟨p, hp, rfl⟩ := List.mem_map.1 ha
  obtain ⟨q, hq, rfl⟩ := List.mem_map.1 hc
  by_cases e : p.1 = q.1
  · rw [e]
  · have one : ∀ p ∈ as, ∀ z, substOne mode as z p.1 = if mode then replaceAll (wide p.1) (wide p.2) z else replaceAll p.1 p.2 z := by
      intro p hp z
      unfold substOne
      rw [lookup_of_mem as hnd p hp]
      dsimp only
      rw [u16_wide (bracketed_ne (hb p hp)).2.2.2, u16_wide (fun c hc => ((hr p hp).2.2.2 c hc).2)]
    rw [one p hp, one q hq, one q hq, one p hp]
    have hpm : p.1 ∈ as.map (·.1) := List.mem_map.mpr ⟨p, hp, rfl⟩
    have hqm : q.1 ∈ as.map (·.1) := List.mem_map.mpr ⟨q, hq, rfl⟩
    cases mode with
    | false =>
      exact replace_comm (bracketed_ne (hb q hq)).1 (bracketed_ne (hb p hp)).1 (apart_marked (bracketed_marked hxy (hb q hq)) (bracketed_marked hxy (hb p hp)) (fun e' => e e'.symm))
        (apart_marked (bracketed_marked hxy (hb p hp)) (bracketed_marked hxy (hb q hq)) e) (apart_raw hxy (hb p hp) hpm (hr q hq)) (apart_raw hxy (hb q hq) hqm (hr p hp)) z
    | true =>
      obtain ⟨b1, b2, b3, _⟩ := bracketed_ne (hb p hp)
      obtain ⟨c1, c2, c3, _⟩ := bracketed_ne (hb q hq)
      exact replace_comm (wide_ne c1) (wide_ne b1)
        (apart_marked ((bracketed_marked hxy (hb q hq)).wide c2 c3) ((bracketed_marked hxy (hb p hp)).wide b2 b3) (fun e' => e (wide_inj e').symm))
        (apart_marked ((bracketed_marked hxy (hb p hp)).wide b2 b3) ((bracketed_marked hxy (hb q hq)).wide c2 c3) (fun e' => e (wide_inj e')))
        (apart_wide hxy (hb p hp) hpm (hr q hq)) (apart_wide hxy (hb q hq) hqm (hr p hp)) z

/-! ### Pages -/

theorem putPageBoxes_re (f : Fpdf) (n : Nat) (hb : ((lookup n f.p.pageBoxes).getD []).length ≤ 1) : f.putPageBoxes (E.reordered o h) n = f.putPageBoxes E n := by
  unfold Fpdf.putPageBoxes
  dsimp only
  rw [ord_short _ _ (by unfold keys; rwa [List.length_map])]

theorem putMediaBox_p (f : Fpdf) (n : Nat) : (f.putMediaBox n).p = f.p := by
  unfold Fpdf.putMediaBox; split
  · exact out_keep_p _ _
  · rfl

theorem putPageDict_re (hPt : Rat) (f : Fpdf) (n : Nat) (hb : ((lookup n f.p.pageBoxes).getD []).length ≤ 1) : f.putPageDict (E.reordered o h) hPt n = f.putPageDict E hPt n := by
  unfold Fpdf.putPageDict
  dsimp only
  rw [putPageBoxes_re _ n (by rw [putMediaBox_p]; unfold Fpdf.outs; rw [out_keep_p, out_keep_p, (newobj_keeps f).2.1]; exact hb)]
  simp only [putAnnots_re]

theorem wfix_p {f g : Fpdf} (h : wfix g = wfix f) : g.p = f.p := by
  have e := congrArg (fun f : Fpdf => f.p) h; exact e

theorem putPagesLoop_re (hPt : Rat) (cnt : Nat) : ∀ (n : Nat) (f : Fpdf) (k : List Nat), f.state = 1 → (Fpdf.putPagesLoop E hPt cnt n f k).1.err = none →
    (∀ n, ((lookup n f.p.pageBoxes).getD []).length ≤ 1) → Fpdf.putPagesLoop (E.reordered o h) hPt cnt n f k = Fpdf.putPagesLoop E hPt cnt n f k := by
  induction cnt with
  | zero => intro n f k _ _ _; rfl
  | succ c ih =>
    intro n f k hs he hb
    unfold Fpdf.putPagesLoop at he ⊢
    dsimp only at he ⊢
    rw [putPageDict_re hPt f n (hb n), putContent_re]
    have hw := (putPageDict_writes E hPt f n).trans (putContent_writes E (f.putPageDict E hPt n) ((f.putPageDict E hPt n).pages.getD n []))
    have hl := latch_none (putPagesLoop_writes E hPt c _ _ _) he
    obtain ⟨_, w⟩ := hw.w hs hl
    exact ih _ _ _ (w.state.trans hs) he (by rw [wfix_p w.fix]; exact hb)


/-! ### Resources -/

theorem putSpotColors_re (f : Fpdf) (hl : f.r.spotColorMap.length ≤ 1) : f.putSpotColors (E.reordered o h) = f.putSpotColors E := by
  unfold Fpdf.putSpotColors
  rw [ord_short _ _ (by unfold keys; rwa [List.length_map])]

theorem wfix_m {f g : Fpdf} (h : wfix g = wfix f) : g.m.catalogSort = f.m.catalogSort := by
  have e := congrArg (fun f : Fpdf => f.m.catalogSort) h; exact e

theorem putfonts_re (f : Fpdf) (hs : f.state = 1) (he : (f.putfonts E).err = none) (hc : f.m.catalogSort = true) : f.putfonts (E.reordered o h) = f.putfonts E := by
  unfold Fpdf.putfonts at he ⊢
  by_cases h0 : f.err ≠ none
  · rw [if_pos h0, if_pos h0]
  · rw [if_neg h0] at he ⊢
    rw [if_neg h0]
    dsimp only at he ⊢
    have hd0 : f.putDiffs.m = f.m := by
      unfold Fpdf.putDiffs
      have : ∀ (l : List Bytes) (g : Fpdf), (l.foldl (fun f d => ((f.newobj.outf "<</Type /Encoding /BaseEncoding /WinAnsiEncoding /Differences [%s]>>" [.s d]).outs "endobj")) g).m = g.m := by
        intro l
        induction l with
        | nil => intro g; rfl
        | cons a l ih =>
          intro g
          rw [List.foldl_cons, ih]
          unfold Fpdf.outs Fpdf.outf
          rw [out_keep_m, out_keep_m, (newobj_keeps g).2.2.2]
      exact this _ _
    have hd : f.putDiffs.m.catalogSort = true := by rw [hd0]; exact hc
    rw [hd, visit_same, putFontFile_re, putFont_re] at *
    have hw := (putDiffs_writes f).trans (Writes.foldl (Fpdf.putFontFile E) (putFontFile_writes E) (visit E true 4 (keys f.putDiffs.t.fontFiles) bytesLe) f.putDiffs)
    generalize (visit E true 4 (keys f.putDiffs.t.fontFiles) bytesLe).foldl (Fpdf.putFontFile E) f.putDiffs = g at *
    by_cases h1 : g.err ≠ none
    · rw [if_pos h1, if_pos h1]
    · rw [if_neg h1, if_neg h1]
      obtain ⟨_, w⟩ := hw.w hs (by simpa using h1)
      rw [wfix_m w.fix, hc, visit_same]

/-! ### Images -/

theorem out_keep_r (f : Fpdf) (s : Bytes) : (f.out s).r = f.r := by unfold Fpdf.out; split <;> rfl
theorem newobj_keep_r (f : Fpdf) : f.newobj.r = f.r := by unfold Fpdf.newobj Fpdf.outf; dsimp only; rw [out_keep_r]
theorem putstream_keep_r (md5 : Bytes → Bytes) (f : Fpdf) (b : Bytes) : (f.putstream md5 b).r = f.r := by
  unfold Fpdf.putstream Fpdf.outs
  dsimp only
  rw [out_keep_r, out_keep_r, out_keep_r]
  split <;> rfl
theorem ite_keep_r (c : Prop) [Decidable c] (a b : Fpdf) : (if c then a else b).r = if c then a.r else b.r := by split <;> rfl
theorem putImageObj_keep_r (E : Ext) (f : Fpdf) (i : ImageInfo) : (f.putImageObj E i).r = f.r := by
  unfold Fpdf.putImageObj Fpdf.outs Fpdf.outf
  simp only [out_keep_r, putstream_keep_r, ite_keep_r, newobj_keep_r, ite_self]
theorem putContent_keep_r (E : Ext) (f : Fpdf) (b : Bytes) : (f.putContent E b).r = f.r := by
  unfold Fpdf.putContent Fpdf.outs Fpdf.outf
  simp only [out_keep_r, putstream_keep_r, ite_keep_r, newobj_keep_r, ite_self]
theorem putimage_keep_r (E : Ext) (f : Fpdf) (i : ImageInfo) : (f.putimage E i).r = f.r := by
  unfold Fpdf.putimage
  dsimp only
  rw [ite_keep_r, putContent_keep_r, ite_self]
  split
  · rw [ite_keep_r, putImageObj_keep_r, putImageObj_keep_r, ite_self]
  · exact putImageObj_keep_r _ _ _

/-- The image without the number of its object. -/
def bare (i : ImageInfo) : ImageInfo := { i with n := 0 }

theorem putimage_bare (E : Ext) (f : Fpdf) (i : ImageInfo) : f.putimage E i = f.putimage E (bare i) := by
  unfold Fpdf.putimage Fpdf.putImageObj bare
  dsimp only

/-- One image, with those already written. -/
def imgStep (E : Ext) (s : Fpdf × List (Bytes × Nat)) (k : Bytes) : Fpdf × List (Bytes × Nat) :=
  match lookup k s.1.r.images with
  | none => s
  | some p =>
    match s.1.r.imgHeap[p]? with
    | none => s
    | some info =>
      match lookup info.i s.2 with
      | some n => (s.1.setImgN p n, s.2)
      | none => ((s.1.putimage E info).setImgN p (s.1.n + 1), Model.insert info.i (s.1.n + 1) s.2)

theorem imgLoop_eq (E : Ext) (l : List Bytes) : ∀ (f : Fpdf) (ins : List (Bytes × Nat)), Fpdf.putImagesLoop E l f ins = (l.foldl (imgStep E) (f, ins)).1 := by
  induction l with
  | nil => intro f ins; rfl
  | cons k l ih =>
    intro f ins
    unfold Fpdf.putImagesLoop
    rw [List.foldl_cons]
    cases h1 : lookup k f.r.images with
    | none => rw [ih]; unfold imgStep; simp only [h1]
    | some p =>
      dsimp only
      cases h2 : f.r.imgHeap[p]? with
      | none => dsimp only; rw [ih]; unfold imgStep; simp only [h1, h2]
      | some info =>
        dsimp only
        cases h3 : lookup info.i ins with
        | none => dsimp only; rw [ih]; conv => rhs; arg 1; arg 2; unfold imgStep; simp only [h1, h2, h3]
        | some n => dsimp only; rw [ih]; conv => rhs; arg 1; arg 2; unfold imgStep; simp only [h1, h2, h3]

/-- The images of `f0`, perhaps with other object numbers. -/
def ImgsOf (f0 : Fpdf) (s : Fpdf × List (Bytes × Nat)) : Prop := s.1.r.images = f0.r.images ∧ ∀ p : Nat, (s.1.r.imgHeap[p]?).map bare = (f0.r.imgHeap[p]?).map bare

theorem setImgN_at (f : Fpdf) (p n q : Nat) : (f.setImgN p n).r.imgHeap[q]? = if q = p then (f.r.imgHeap[q]?).map (fun i => { i with n := n }) else f.r.imgHeap[q]? := by
  show (modifyAt p _ f.r.imgHeap)[q]? = _
  rw [modifyAt_getElem?]

theorem setImgN_bare (f : Fpdf) (p n q : Nat) : ((f.setImgN p n).r.imgHeap[q]?).map bare = (f.r.imgHeap[q]?).map bare := by
  rw [setImgN_at]
  split
  · rw [Option.map_map]; rfl
  · rfl

theorem imgStep_imgs (E : Ext) (f0 : Fpdf) (s : Fpdf × List (Bytes × Nat)) (k : Bytes) (h : ImgsOf f0 s) : ImgsOf f0 (imgStep E s k) := by
  unfold imgStep
  split
  · exact h
  · split
    · exact h
    · split
      · exact ⟨h.1, fun q => by rw [setImgN_bare]; exact h.2 q⟩
      · refine ⟨?_, fun q => ?_⟩
        · show (Fpdf.putimage E s.1 _).r.images = _
          rw [putimage_keep_r]; exact h.1
        · rw [setImgN_bare, putimage_keep_r]; exact h.2 q

/-- The image with the name `k`. -/
def imageOf (f : Fpdf) (k : Bytes) : Option ImageInfo := (lookup k f.r.images).bind (f.r.imgHeap[·]?)

theorem imgStep_none {E : Ext} {s : Fpdf × List (Bytes × Nat)} {k : Bytes} (h : imageOf s.1 k = none) : imgStep E s k = s := by
  unfold imageOf at h
  unfold imgStep
  cases h1 : lookup k s.1.r.images with
  | none => rfl
  | some p => rw [h1] at h; simp only [Option.bind_some] at h; simp only [h]

theorem imgStep_some {E : Ext} {s : Fpdf × List (Bytes × Nat)} {k : Bytes} {p : Nat} {i : ImageInfo} (h1 : lookup k s.1.r.images = some p) (h2 : s.1.r.imgHeap[p]? = some i) :
    imgStep E s k = match lookup i.i s.2 with
      | some n => (s.1.setImgN p n, s.2)
      | none => ((s.1.putimage E i).setImgN p (s.1.n + 1), Model.insert i.i (s.1.n + 1) s.2) := by
  unfold imgStep
  simp only [h1, h2]

theorem imageOf_bare {f0 : Fpdf} {s : Fpdf × List (Bytes × Nat)} (h : ImgsOf f0 s) (k : Bytes) : (imageOf s.1 k).map bare = (imageOf f0 k).map bare := by
  unfold imageOf
  rw [h.1]
  cases lookup k f0.r.images with
  | none => rfl
  | some p => exact h.2 p

theorem setImgN_comm (f : Fpdf) (p q n : Nat) : (f.setImgN p n).setImgN q n = (f.setImgN q n).setImgN p n := by
  unfold Fpdf.setImgN
  have : modifyAt q (fun i : ImageInfo => { i with n := n }) (modifyAt p (fun i => { i with n := n }) f.r.imgHeap) = modifyAt p (fun i => { i with n := n }) (modifyAt q (fun i => { i with n := n }) f.r.imgHeap) := by
    apply List.ext_getElem?
    intro j
    rw [modifyAt_getElem?, modifyAt_getElem?, modifyAt_getElem?, modifyAt_getElem?]
    split <;> split <;> rfl
  simp only [this]

theorem bare_i {a b : ImageInfo} (h : bare a = bare b) : a.i = b.i := by
  have e := congrArg (fun i : ImageInfo => i.i) h; exact e

theorem imgStep_comm (E : Ext) (s : Fpdf × List (Bytes × Nat)) (a b : Bytes) (h : ∀ i j, imageOf s.1 a = some i → imageOf s.1 b = some j → bare i = bare j) :
    imgStep E (imgStep E s a) b = imgStep E (imgStep E s b) a := by
  have self : ImgsOf s.1 s := ⟨rfl, fun _ => rfl⟩
  have none_after : ∀ x y : Bytes, imageOf s.1 x = none → imageOf (imgStep E s y).1 x = none := fun x y hx => by
    have := imageOf_bare (imgStep_imgs E s.1 s y self) x
    rw [hx] at this
    simpa using this
  cases ha : imageOf s.1 a with
  | none => rw [imgStep_none ha, imgStep_none (none_after a b ha)]
  | some i =>
    cases hb : imageOf s.1 b with
    | none => rw [imgStep_none hb, imgStep_none (none_after b a hb)]
    | some j =>
      have hij := h i j ha hb
      have hi := bare_i hij
      unfold imageOf at ha hb
      obtain ⟨p, a1, a2⟩ := Option.bind_eq_some_iff.1 ha
      obtain ⟨q, b1, b2⟩ := Option.bind_eq_some_iff.1 hb
      have key : ∀ (x y : Bytes) (p q : Nat) (i j : ImageInfo), bare i = bare j → lookup x s.1.r.images = some p → s.1.r.imgHeap[p]? = some i → lookup y s.1.r.images = some q →
          s.1.r.imgHeap[q]? = some j → imgStep E (imgStep E s x) y = match lookup i.i s.2 with
            | some n => ((s.1.setImgN p n).setImgN q n, s.2)
            | none => (((s.1.putimage E (bare i)).setImgN p (s.1.n + 1)).setImgN q (s.1.n + 1), Model.insert i.i (s.1.n + 1) s.2) := by
        intro x y p q i j hij a1 a2 b1 b2
        have hi := bare_i hij
        have hb' := imageOf_bare (imgStep_imgs E s.1 s x self) y
        have him := (imgStep_imgs E s.1 s x self).1
        have hq : ∃ j', (imgStep E s x).1.r.imgHeap[q]? = some j' ∧ bare j' = bare j := by
          have := (imgStep_imgs E s.1 s x self).2 q
          rw [b2] at this
          obtain ⟨j', e1, e2⟩ := Option.map_eq_some_iff.1 this
          exact ⟨j', e1, e2⟩
        obtain ⟨j', c1, c2⟩ := hq
        rw [imgStep_some (by rw [him]; exact b1) c1, show j'.i = i.i from (bare_i c2).trans hi.symm, imgStep_some a1 a2]
        cases hl : lookup i.i s.2 with
        | some n => dsimp only; rw [hl]
        | none => dsimp only; rw [lookup_insert_self, ← putimage_bare]
      rw [key a b p q i j hij a1 a2 b1 b2, key b a q p j i hij.symm b1 b2 a1 a2, hi, hij]
      cases lookup j.i s.2 with
      | some n => dsimp only; rw [setImgN_comm]
      | none => dsimp only; rw [setImgN_comm]

theorem putImagesLoop_re (l : List Bytes) : ∀ (f : Fpdf) (ins : List (Bytes × Nat)), Fpdf.putImagesLoop (E.reordered o h) l f ins = Fpdf.putImagesLoop E l f ins := by
  induction l with
  | nil => intro f ins; rfl
  | cons k l ih => intro f ins; unfold Fpdf.putImagesLoop; simp only [ih, putimage_re]

theorem imgWidthLe_trans (f : Fpdf) (a b c : Bytes) (h1 : f.imgWidthLe a b = true) (h2 : f.imgWidthLe b c = true) : f.imgWidthLe a c = true := by
  unfold Fpdf.imgWidthLe at *
  simp only [decide_eq_true_eq] at *
  exact le_trans h1 h2
theorem imgWidthLe_total (f : Fpdf) (a b : Bytes) : (f.imgWidthLe a b || f.imgWidthLe b a) = true := by
  unfold Fpdf.imgWidthLe
  simp only [Bool.or_eq_true, decide_eq_true_eq]
  exact le_total _ _

theorem putimages_re (f : Fpdf) (hc : f.m.catalogSort = true) (hi : ∀ a b i j, imageOf f a = some i → imageOf f b = some j → i.w = j.w → bare i = bare j) :
    f.putimages (E.reordered o h) = f.putimages E := by
  unfold Fpdf.putimages
  rw [putImagesLoop_re, imgLoop_eq, imgLoop_eq, hc]
  have hp : (visit (E.reordered o h) true 6 (keys f.r.images) f.imgWidthLe).Perm (visit E true 6 (keys f.r.images) f.imgWidthLe) :=
    ((sortKeys_perm _ _).trans ((h 6 _).trans (E.ord_perm 6 _).symm)).trans (sortKeys_perm _ _).symm
  have sorted : ∀ l : List Bytes, (sortKeys f.imgWidthLe l).Pairwise (fun a b => f.imgWidthLe a b = true) := sortKeys_sorted (imgWidthLe_trans f) (imgWidthLe_total f)
  rw [foldl_tied f.imgWidthLe (imgStep E) (ImgsOf f) (fun s a hs => imgStep_imgs E f s a hs) _ _ (f, []) ⟨rfl, fun _ => rfl⟩ hp (sorted _) (sorted _)]
  intro s a b hs _ _ h1 h2
  refine imgStep_comm E s a b (fun i j hi' hj' => ?_)
  have ea := imageOf_bare hs a
  have eb := imageOf_bare hs b
  rw [hi'] at ea
  rw [hj'] at eb
  obtain ⟨i0, p1, p2⟩ := Option.map_eq_some_iff.1 ea.symm
  obtain ⟨j0, q1, q2⟩ := Option.map_eq_some_iff.1 eb.symm
  have hw : i0.w = j0.w := by
    unfold Fpdf.imgWidthLe at h1 h2
    unfold imageOf at p1 q1
    simp only [decide_eq_true_eq, p1, q1, Option.getD_some] at h1 h2
    exact le_antisymm h1 h2
  rw [← p2, ← q2]
  exact hi a b i0 j0 p1 q1 hw

/-! ### Templates -/

theorem templateFontCatalog_re (f : Fpdf) (hc : f.m.catalogSort = true) : f.templateFontCatalog (E.reordered o h) = f.templateFontCatalog E := by
  unfold Fpdf.templateFontCatalog Fpdf.outs
  dsimp only
  rw [out_keep_m, hc, visit_same]

theorem re_id (t : Tmpl) : t.id (E.reordered o h) = t.id E := rfl

theorem putTemplateXObjects_re (f : Fpdf) (t : Tmpl) (hl : t.images.length ≤ 1) : f.putTemplateXObjects (E.reordered o h) t = f.putTemplateXObjects E t := by
  unfold Fpdf.putTemplateXObjects
  rw [ord_short _ _ (by unfold keys; rwa [List.length_map])]
  simp only [re_id]

theorem ite_keep_m (c : Prop) [Decidable c] (a b : Fpdf) : (if c then a else b).m = if c then a.m else b.m := by split <;> rfl

theorem putTemplate_re (f : Fpdf) (t : Tmpl) (hc : f.m.catalogSort = true) (hl : t.images.length ≤ 1) : f.putTemplate (E.reordered o h) t = f.putTemplate E t := by
  unfold Fpdf.putTemplate
  dsimp only
  rw [templateFontCatalog_re _ (by
    unfold Fpdf.outs Fpdf.outf
    simp only [out_keep_m, ite_keep_m, ite_self]
    rw [(newobj_keeps f).2.2.2]; exact hc)]
  rw [putTemplateXObjects_re _ _ hl, re_id, re_md5, re_deflate]

theorem templateFold_re (l : List Tmpl) : ∀ f : Fpdf, f.state = 1 → (l.foldl (Fpdf.putTemplate E) f).err = none → f.m.catalogSort = true → (∀ t ∈ l, t.images.length ≤ 1) →
    l.foldl (Fpdf.putTemplate (E.reordered o h)) f = l.foldl (Fpdf.putTemplate E) f := by
  induction l with
  | nil => intro f _ _ _ _; rfl
  | cons t l ih =>
    intro f hs he hc hl
    rw [List.foldl_cons] at he ⊢
    rw [List.foldl_cons, putTemplate_re f t hc (hl t (by simp))]
    have e1 := latch_none (Writes.foldl _ (putTemplate_writes E) l _) he
    obtain ⟨_, w⟩ := (putTemplate_writes E f t).w hs e1
    exact ih _ (w.state.trans hs) he ((wfix_m w.fix).trans hc) (fun x hx => hl x (by simp [hx]))

theorem sort_sub {ks : List Bytes} {m : List (Bytes × Tmpl)} (hks : ∀ k, k ∈ ks → k ∈ keys m) {t : Tmpl} (ht : t ∈ sortTemplates ks m) : t ∈ allTemplates m := by
  unfold sortTemplates at ht
  rcases dedup_sub _ _ _ ht with h1 | h1
  · cases h1
  · unfold allTemplates
    obtain ⟨k, a, b⟩ := List.mem_flatMap.1 h1
    exact List.mem_flatMap.2 ⟨k, hks k a, b⟩

theorem putTemplates_re (f : Fpdf) (hs : f.state = 1) (he : (f.putTemplates E).err = none) (hc : f.m.catalogSort = true) (hl : ∀ t ∈ allTemplates f.r.templates, t.images.length ≤ 1) :
    f.putTemplates (E.reordered o h) = f.putTemplates E := by
  unfold Fpdf.putTemplates at he ⊢
  rw [hc] at he ⊢
  rw [visit_same]
  exact templateFold_re _ f hs he hc (fun t ht => hl t (sort_sub (fun k hk => (visit_iff E _ _ _ _ k).1 hk) ht))

/-! ### The resource dictionary -/

theorem keys_lookup {β : Type} {k : Bytes} {m : List (Bytes × β)} (hk : k ∈ keys m) : ∃ v, lookup k m = some v := by
  induction m with
  | nil => cases hk
  | cons y m ih =>
    obtain ⟨a, b⟩ := y
    by_cases e : a = k
    · exact ⟨b, by simp [lookup, e]⟩
    · have : k ∈ keys m := by
        rcases List.mem_cons.1 hk with r | r
        · exact absurd r.symm e
        · exact r
      obtain ⟨v, hv⟩ := ih this
      exact ⟨v, by simpa [lookup, e] using hv⟩

theorem putFontNames_re (f : Fpdf) (hc : f.m.catalogSort = true) (hi : ∀ a b x y, lookup a f.t.fonts = some x → lookup b f.t.fonts = some y → x.i = y.i → a = b) :
    f.putFontNames (E.reordered o h) = f.putFontNames E := by
  unfold Fpdf.putFontNames
  rw [hc]
  have : visit (E.reordered o h) true 13 (keys f.t.fonts) (fun a b => bytesLe (((lookup a f.t.fonts).getD {}).i) (((lookup b f.t.fonts).getD {}).i)) =
      visit E true 13 (keys f.t.fonts) (fun a b => bytesLe (((lookup a f.t.fonts).getD {}).i) (((lookup b f.t.fonts).getD {}).i)) := by
    have hp := h 13 (keys f.t.fonts)
    refine sorted_eq _ (hp.trans (E.ord_perm 13 _).symm) (fun a b c => bytesLe_trans _ _ _) (fun a b => bytesLe_total _ _) (fun a b ha hb h1 h2 => ?_)
    obtain ⟨x, hx⟩ := keys_lookup (hp.subset ha)
    obtain ⟨y, hy⟩ := keys_lookup (hp.subset hb)
    have := bytesLe_antisymm _ _ h1 h2
    rw [hx, hy] at this
    exact hi a b x y hx hy this
  rw [this]

/-- The name of an image. -/
def xStep (s : Fpdf) (k : Bytes) : Fpdf :=
  match (lookup k s.r.images).bind (s.r.imgHeap[·]?) with
  | some im => s.outf "/I%s %d 0 R" [.s im.i, .d im.n]
  | none => s

/-- Comparing images by their IDs. -/
def idLe (f : Fpdf) (a b : Bytes) : Bool := bytesLe ((imageOf f a).getD {}).i ((imageOf f b).getD {}).i

/-- The name of a template. -/
def tStep (E : Ext) (f : Fpdf) (k : Bytes) : Fpdf :=
  match lookup k f.r.templates with
  | some t =>
    match lookup (t.id E) f.r.templateObjects with
    | some o => f.outf "/TPL%s %d 0 R" [.s (t.id E), .d o]
    | none => f
  | none => f

theorem xobjs_eq (E : Ext) (f : Fpdf) : f.putxobjectdict E =
    (visit E ((visit E f.m.catalogSort 10 (keys f.r.images) (idLe f)).foldl xStep f).m.catalogSort 11 (keys ((visit E f.m.catalogSort 10 (keys f.r.images) (idLe f)).foldl xStep f).r.templates) bytesLe).foldl
      (tStep E) ((visit E f.m.catalogSort 10 (keys f.r.images) (idLe f)).foldl xStep f) := rfl

theorem xStep_r (s : Fpdf) (k : Bytes) : (xStep s k).r = s.r := by
  unfold xStep
  split
  · exact out_keep_r _ _
  · rfl
theorem xStep_m (s : Fpdf) (k : Bytes) : (xStep s k).m = s.m := by
  unfold xStep
  split
  · exact out_keep_m _ _
  · rfl

theorem xStep_of {f s : Fpdf} (h : s.r = f.r) (k : Bytes) : xStep s k = match imageOf f k with | some im => s.outf "/I%s %d 0 R" [.s im.i, .d im.n] | none => s := by
  unfold xStep imageOf
  rw [h]

theorem xobjs_re (f : Fpdf) (hc : f.m.catalogSort = true) (hi : ∀ a b i j, imageOf f a = some i → imageOf f b = some j → i.i = j.i → i.n = j.n) :
    f.putxobjectdict (E.reordered o h) = f.putxobjectdict E := by
  have hp : (visit (E.reordered o h) true 10 (keys f.r.images) (idLe f)).Perm (visit E true 10 (keys f.r.images) (idLe f)) :=
    ((sortKeys_perm _ _).trans ((h 10 _).trans (E.ord_perm 10 _).symm)).trans (sortKeys_perm _ _).symm
  have sorted : ∀ l : List Bytes, (sortKeys (idLe f) l).Pairwise (fun a b => idLe f a b = true) := sortKeys_sorted (fun a b c => bytesLe_trans _ _ _) (fun a b => bytesLe_total _ _)
  have e1 := foldl_tied (idLe f) xStep (fun s => s.r = f.r) (fun s a hs => (xStep_r s a).trans hs) _ _ f rfl hp (sorted _) (sorted _) (by
    intro s a b hs _ _ h1 h2
    have hab := bytesLe_antisymm _ _ h1 h2
    rw [xStep_of ((xStep_r s a).trans hs), xStep_of ((xStep_r s b).trans hs), xStep_of hs, xStep_of hs]
    cases ha : imageOf f a with
    | none => rfl
    | some i =>
      cases hb : imageOf f b with
      | none => rfl
      | some j =>
        rw [ha, hb] at hab
        have hab' : i.i = j.i := hab
        have := hi a b i j ha hb hab'
        dsimp only
        rw [hab', this])
  rw [xobjs_eq, xobjs_eq, hc, e1]
  generalize hg : (List.foldl xStep f (visit E true 10 _ _)) = g
  have hgm : g.m.catalogSort = true := by
    rw [← hg]
    have : ∀ (l : List Bytes) (s : Fpdf), (l.foldl xStep s).m = s.m := by
      intro l
      induction l with
      | nil => intro s; rfl
      | cons k l ih => intro s; rw [List.foldl_cons, ih]; exact xStep_m s k
    rw [this]; exact hc
  rw [hgm, visit_same]
  rfl

theorem spotDict_re (f : Fpdf) (hl : f.r.spotColorMap.length ≤ 1) : f.spotColorPutResourceDict (E.reordered o h) = f.spotColorPutResourceDict E := by
  unfold Fpdf.spotColorPutResourceDict Fpdf.outs
  dsimp only
  rw [out_keep_r, ord_short _ _ (by unfold keys; rwa [List.length_map])]

/-! ### Between the stages -/

/-- Images already gone through have the number recorded for their ID. -/
def Numbered (s : Fpdf × List (Bytes × Nat)) (done : List Bytes) : Prop := ∀ k ∈ done, ∀ i, imageOf s.1 k = some i → lookup i.i s.2 = some i.n

theorem imgStep_numbered (E : Ext) (s : Fpdf × List (Bytes × Nat)) (done : List Bytes) (k : Bytes) (hd : Numbered s done) : Numbered (imgStep E s k) (done ++ [k]) := by
  cases ha : imageOf s.1 k with
  | none =>
    rw [imgStep_none ha]
    intro x hx i hi
    rcases List.mem_append.1 hx with hx | hx
    · exact hd x hx i hi
    · rw [List.mem_singleton.1 hx, ha] at hi; cases hi
  | some info =>
    have ha0 := ha
    unfold imageOf at ha
    obtain ⟨p, a1, a2⟩ := Option.bind_eq_some_iff.1 ha
    rw [imgStep_some a1 a2]
    have key : ∀ (f' : Fpdf) (ins : List (Bytes × Nat)) (n : Nat), f'.r = s.1.r → lookup info.i ins = some n → (∀ x, x ≠ info.i → lookup x ins = lookup x s.2) →
        (lookup info.i s.2 = none ∨ lookup info.i s.2 = some n) → Numbered (f'.setImgN p n, ins) (done ++ [k]) := by
      intro f' ins n hr hl hne hcase x hx i hi
      unfold imageOf at hi
      obtain ⟨q, b1, b2⟩ := Option.bind_eq_some_iff.1 hi
      have b1' : lookup x s.1.r.images = some q := by rw [← hr]; exact b1
      dsimp only at b2
      rw [setImgN_at] at b2
      by_cases hq : q = p
      · rw [if_pos hq, hq, hr, a2] at b2
        cases b2
        exact hl
      · rw [if_neg hq, hr] at b2
        have hxd : x ∈ done := by
          rcases List.mem_append.1 hx with hx | hx
          · exact hx
          · rw [List.mem_singleton.1 hx, a1] at b1'
            exact absurd (Option.some.inj b1').symm hq
        have old := hd x hxd i (by unfold imageOf; rw [b1']; exact b2)
        by_cases hi' : i.i = info.i
        · rw [hi'] at old ⊢
          rcases hcase with hcase | hcase
          · rw [hcase] at old; cases old
          · show lookup info.i ins = _
            rw [hl, ← hcase, old]
        · show lookup i.i ins = _
          rw [hne _ hi', old]
    cases hl : lookup info.i s.2 with
    | some n => exact key s.1 s.2 n rfl hl (fun _ _ => rfl) (.inr hl)
    | none =>
      refine key _ _ (s.1.n + 1) (putimage_keep_r E s.1 info) (lookup_insert_self _ _ _) (fun x hx => lookup_insert_ne _ _ hx) (.inl hl)

theorem imgFold_numbered (E : Ext) (l : List Bytes) : ∀ (s : Fpdf × List (Bytes × Nat)) (done : List Bytes), Numbered s done → Numbered (l.foldl (imgStep E) s) (done ++ l) := by
  induction l with
  | nil => intro s done hd; simpa using hd
  | cons k l ih =>
    intro s done hd
    have := ih (imgStep E s k) (done ++ [k]) (imgStep_numbered E s done k hd)
    rw [List.foldl_cons]
    simpa using this

theorem imgFold_imgs (E : Ext) (f0 : Fpdf) (l : List Bytes) : ∀ s, ImgsOf f0 s → ImgsOf f0 (l.foldl (imgStep E) s) := by
  induction l with
  | nil => intro s hs; exact hs
  | cons k l ih => intro s hs; exact ih _ (imgStep_imgs E f0 s k hs)

theorem putimages_same_n (E : Ext) (f : Fpdf) (a b : Bytes) (i j : ImageInfo) (hi : imageOf (f.putimages E) a = some i) (hj : imageOf (f.putimages E) b = some j) (hij : i.i = j.i) : i.n = j.n := by
  unfold Fpdf.putimages at hi hj
  rw [imgLoop_eq] at hi hj
  have hn := imgFold_numbered E (visit E f.m.catalogSort 6 (keys f.r.images) f.imgWidthLe) (f, []) [] (fun k hk => absurd hk (by simp))
  have him := (imgFold_imgs E f (visit E f.m.catalogSort 6 (keys f.r.images) f.imgWidthLe) (f, []) ⟨rfl, fun _ => rfl⟩).1
  rw [List.nil_append] at hn
  have mem : ∀ x y, imageOf (List.foldl (imgStep E) (f, []) (visit E f.m.catalogSort 6 (keys f.r.images) f.imgWidthLe)).1 x = some y → x ∈ visit E f.m.catalogSort 6 (keys f.r.images) f.imgWidthLe := by
    intro x y hxy
    unfold imageOf at hxy
    obtain ⟨p, h1, _⟩ := Option.bind_eq_some_iff.1 hxy
    rw [him] at h1
    exact mem_visit E _ _ _ (lookup_keys h1)
  have e1 := hn a (mem a i hi) i hi
  have e2 := hn b (mem b j hj) j hj
  rw [hij, e2] at e1
  exact (Option.some.inj e1).symm

theorem putSpotColor_keep_r (f : Fpdf) (k : Bytes) (v : SpotColor) : (f.putSpotColor k v).r = f.r := by
  unfold Fpdf.putSpotColor Fpdf.outs Fpdf.outf
  simp only [out_keep_r, newobj_keep_r]

theorem putSpotColors_short (E : Ext) (f : Fpdf) (hl : f.r.spotColorMap.length ≤ 1) : (f.putSpotColors E).r.spotColorMap.length ≤ 1 := by
  have key : ∀ (ks : List Bytes) (s : Fpdf), s.r.spotColorMap.length ≤ 1 → (ks.foldl (fun f k =>
      match lookup k f.r.spotColorMap with
      | some v =>
        let f := f.putSpotColor k v
        { f with r.spotColorMap := Model.insert k { v with objID := f.n } f.r.spotColorMap }
      | none => f) s).r.spotColorMap.length ≤ 1 := by
    intro ks
    induction ks with
    | nil => intro s hs; exact hs
    | cons k ks ih =>
      intro s hs
      rw [List.foldl_cons]
      apply ih
      split
      · rename_i v hv
        dsimp only
        rw [putSpotColor_keep_r]
        match hm : s.r.spotColorMap, hs with
        | [], _ => rw [hm] at hv; cases hv
        | [(a, b)], _ =>
          have : a = k := by
            by_contra hne
            rw [hm] at hv
            simp [lookup, hne] at hv
          simp [Model.insert, this]
      · exact hs
  exact key _ f hl

theorem fontFold_none (E : Ext) (nf : Nat) (k : Bytes) (ks : List Bytes) : ∀ f : Fpdf, f.state = 1 → (ks.foldl (Fpdf.putFont E nf) f).err = none → lookup k f.t.fonts = none →
    lookup k (ks.foldl (Fpdf.putFont E nf) f).t.fonts = none := by
  induction ks with
  | nil => intro f _ _ hk; exact hk
  | cons a r ih =>
    intro f hs he hk
    rw [List.foldl_cons] at he ⊢
    have e1 : (f.putFont E nf a).err = none := latch_none (Writes.foldl _ (putFont_writes E nf) r _) he
    have e0 : f.err = none := latch_none (putFont_writes E nf f a) e1
    cases ha : lookup a f.t.fonts with
    | none =>
      have : f.putFont E nf a = f := by unfold Fpdf.putFont; rw [if_neg (by simp [e0]), ha]
      rw [this] at he ⊢
      exact ih f hs he hk
    | some va =>
      obtain ⟨⟨t0, rest, w1⟩, hm⟩ := putFont_w E nf f a va hs e0 ha e1
      refine ih _ (w1.state.trans hs) he ?_
      rw [hm, lookup_insert_ne _ _ (by rintro rfl; rw [ha] at hk; cases hk)]
      exact hk

theorem putfonts_none (E : Ext) (f : Fpdf) (hs : f.state = 1) (he : (f.putfonts E).err = none) (k : Bytes) (hk : lookup k f.t.fonts = none) : lookup k (f.putfonts E).t.fonts = none := by
  have e0 := latch_none (putfonts_writes E f) he
  unfold Fpdf.putfonts at he ⊢
  rw [if_neg (by simp [e0])] at he ⊢
  dsimp only at he ⊢
  have hw := (putDiffs_writes f).trans (Writes.foldl (Fpdf.putFontFile E) (putFontFile_writes E) (visit E f.putDiffs.m.catalogSort 4 (keys f.putDiffs.t.fontFiles) bytesLe) f.putDiffs)
  have hkp := Kp.foldl (Fpdf.putFontFile E) (putFontFile_kp E) (visit E f.putDiffs.m.catalogSort 4 (keys f.putDiffs.t.fontFiles) bytesLe) (putDiffs_kp f)
  generalize (visit E f.putDiffs.m.catalogSort 4 (keys f.putDiffs.t.fontFiles) bytesLe).foldl (Fpdf.putFontFile E) f.putDiffs = g at he hw hkp ⊢
  have eg : lookup k g.t.fonts = none := by
    have := congrArg (fun r : Res => r.fonts) (hkp hs).2
    rw [show g.t.fonts = f.t.fonts from this]; exact hk
  by_cases hge : g.err = none
  · rw [if_neg (by simp [hge])] at he ⊢
    exact fontFold_none E _ k _ g (hkp hs).1 he eg
  · rw [if_pos hge]; exact eg

/-- Fonts with different names have different IDs. -/
def FontsApart (m : List (Bytes × FontDef)) : Prop := ∀ a b x y, lookup a m = some x → lookup b m = some y → x.i = y.i → a = b

theorem putfonts_apart (E : Ext) (f : Fpdf) (hs : f.state = 1) (he : (f.putfonts E).err = none) (hi : FontsApart f.t.fonts) : FontsApart (f.putfonts E).t.fonts := by
  obtain ⟨_, _, hf⟩ := putfonts_w E f hs he
  have back : ∀ k x, lookup k (f.putfonts E).t.fonts = some x → ∃ v, lookup k f.t.fonts = some v ∧ v.i = x.i := by
    intro k x hx
    cases hk : lookup k f.t.fonts with
    | none => rw [putfonts_none E f hs he k hk] at hx; cases hx
    | some v =>
      obtain ⟨n, _, h1, _⟩ := hf k v hk
      rw [h1] at hx
      cases hx
      exact ⟨v, rfl, rfl⟩
  intro a b x y ha hb hxy
  obtain ⟨v, h1, h2⟩ := back a x ha
  obtain ⟨w, h3, h4⟩ := back b y hb
  exact hi a b v w h1 h3 (by rw [h2, h4, hxy])

theorem wfix_registered {f g : Fpdf} (h : wfix g = wfix f) : g.r.images = f.r.images ∧ g.r.templates = f.r.templates := by
  have e1 := congrArg (fun f : Fpdf => f.r.images) h
  have e2 := congrArg (fun f : Fpdf => f.r.templates) h
  exact ⟨e1, e2⟩

theorem putresourcedict_re (f : Fpdf) (hs : f.state = 1) (hc : f.m.catalogSort = true) (hl : f.r.spotColorMap.length ≤ 1) (hi : FontsApart f.t.fonts)
    (hn : ∀ a b i j, imageOf f a = some i → imageOf f b = some j → i.i = j.i → i.n = j.n) : f.putresourcedict (E.reordered o h) = f.putresourcedict E := by
  unfold Fpdf.putresourcedict
  dsimp only
  have keep : ∀ {f g : Fpdf}, f.state = 1 → Pl f g → g.state = 1 ∧ g.r = f.r ∧ g.t = f.t ∧ g.m.catalogSort = f.m.catalogSort := by
    intro f g hs hp
    obtain ⟨b, hb⟩ := hp.o hs
    have e := congrArg (fun f : Fpdf => f.m.catalogSort) hb.fix
    exact ⟨hb.state.trans hs, (out_r hb).1, (out_r hb).2.1, e⟩
  have p1 : Pl f ((f.outs "/ProcSet [/PDF /Text /ImageB /ImageC /ImageI]").outs "/Font <<") := ((Pl.refl f).out _).out _
  generalize (f.outs "/ProcSet [/PDF /Text /ImageB /ImageC /ImageI]").outs "/Font <<" = g1 at p1 ⊢
  obtain ⟨a1, a2, a3, a4⟩ := keep hs p1
  rw [putFontNames_re g1 (a4.trans hc) (by rw [a3]; exact hi)]
  have p2 : Pl g1 (((g1.putFontNames E).outs ">>").outs "/XObject <<") := by
    refine Pl.out (Pl.out ?_ _) _
    unfold Fpdf.putFontNames
    have : ∀ (l : List Bytes) (s : Fpdf), Pl s (l.foldl (fun f k =>
        match lookup k f.t.fonts with
        | some font => f.outf "/F%s %d 0 R" [.s font.i, .d font.n]
        | none => f) s) := by
      intro l
      induction l with
      | nil => intro s; exact Pl.refl s
      | cons k l ih =>
        intro s
        rw [List.foldl_cons]
        refine Pl.trans ?_ (ih _)
        split
        · exact (Pl.refl s).out _
        · exact Pl.refl s
    exact this _ _
  generalize ((g1.putFontNames E).outs ">>").outs "/XObject <<" = g2 at p2 ⊢
  obtain ⟨b1, b2, b3, b4⟩ := keep a1 p2
  have e2 : ∀ k, imageOf g2 k = imageOf f k := fun k => by unfold imageOf; rw [b2, a2]
  rw [xobjs_re g2 (b4.trans (a4.trans hc)) (fun a b i j ha hb => hn a b i j ((e2 a).symm.trans ha) ((e2 b).symm.trans hb))]
  have p3 : Pl g2 ((g2.putxobjectdict E).outs ">>") := (putxobjectdict_pl E (Pl.refl g2)).out _
  generalize (g2.putxobjectdict E).outs ">>" = g3 at p3 ⊢
  obtain ⟨c1, c2, c3, c4⟩ := keep b1 p3
  have p4 : Pl g3 g3.putNumberedNames := by
    unfold Fpdf.putNumberedNames
    dsimp only
    have p : ∀ (c : Prop) [Decidable c] (fmt t : String) (i : Nat) (l : List Nat) (g : Fpdf), Pl g3 g → Pl g3 (if c then (Fpdf.putNumbered fmt i l (g.outs t)).outs ">>" else g) := by
      intro c _ fmt t i l g hg
      split
      · exact (putNumbered_pl fmt _ i (hg.out _)).out _
      · exact hg
    apply p
    apply p
    apply p
    exact Pl.refl _
  obtain ⟨d1, d2, d3, d4⟩ := keep c1 p4
  exact spotDict_re _ (by rw [d2, c2, b2, a2]; exact hl)

theorem putResourceObj_re (f : Fpdf) (hs : f.state = 1) (hc : f.m.catalogSort = true) (hl : f.r.spotColorMap.length ≤ 1) (hi : FontsApart f.t.fonts)
    (hn : ∀ a b i j, imageOf f a = some i → imageOf f b = some j → i.i = j.i → i.n = j.n) : f.putResourceObj (E.reordered o h) = f.putResourceObj E := by
  unfold Fpdf.putResourceObj
  dsimp only
  have p1 : Pl (f.setOffset 2) (((f.setOffset 2).outs "2 0 obj").outs "<<") := ((Pl.refl _).out _).out _
  obtain ⟨b, hb⟩ := p1.o hs
  have e := congrArg (fun f : Fpdf => f.m.catalogSort) hb.fix
  have hr := (out_r hb).1
  have ht := (out_r hb).2.1
  generalize ((f.setOffset 2).outs "2 0 obj").outs "<<" = g at *
  have hr' : g.r = f.r := hr
  have ht' : g.t = f.t := ht
  have he : ∀ k, imageOf g k = imageOf f k := fun k => by unfold imageOf; rw [hr']
  rw [putresourcedict_re g (hb.state.trans hs) (Eq.trans e hc) (by rw [hr']; exact hl) (by rw [ht']; exact hi)
    (fun a b i j ha hb => hn a b i j ((he a).symm.trans ha) ((he b).symm.trans hb))]

/-- What makes the order in which Go goes through maps irrelevant for the resources. -/
structure ResFixed (f : Fpdf) : Prop where
  sort : f.m.catalogSort = true
  spots : f.r.spotColorMap.length ≤ 1
  fonts : FontsApart f.t.fonts
  images : ∀ a b i j, imageOf f a = some i → imageOf f b = some j → i.w = j.w → bare i = bare j
  templates : ∀ t ∈ allTemplates f.r.templates, t.images.length ≤ 1

theorem resources_re (a : Fpdf) (hs : a.state = 1) (hr : ResFixed a)
    (he : ((((((((a.layerPutLayers E).putBlendModes).putGradients).putSpotColors E).putfonts E).putimages E).putTemplates E)).err = none) :
    (((((a.layerPutLayers (E.reordered o h)).putBlendModes).putGradients).putSpotColors (E.reordered o h)).putfonts (E.reordered o h)) =
      (((((a.layerPutLayers E).putBlendModes).putGradients).putSpotColors E).putfonts E) ∧
    (((((((a.layerPutLayers (E.reordered o h)).putBlendModes).putGradients).putSpotColors (E.reordered o h)).putfonts (E.reordered o h)).putimages (E.reordered o h)).putTemplates
      (E.reordered o h)) = (((((((a.layerPutLayers E).putBlendModes).putGradients).putSpotColors E).putfonts E).putimages E).putTemplates E) ∧
    (((((((a.layerPutLayers E).putBlendModes).putGradients).putSpotColors E).putfonts E).putimages E).putTemplates E).putResourceObj (E.reordered o h) =
      (((((((a.layerPutLayers E).putBlendModes).putGradients).putSpotColors E).putfonts E).putimages E).putTemplates E).putResourceObj E := by
  rw [layerPutLayers_re]
  have w1 := ((layerPutLayers_writes E a).trans (putBlendModes_writes _)).trans (putGradients_writes _)
  have k1 : Kp (fun r => noLayers (noBlend (noGrad r))) a (((a.layerPutLayers E).putBlendModes).putGradients) :=
    (((layerPutLayers_keep E a).mono (fun x y e => by have := congrArg (fun r => noBlend (noGrad r)) e; exact this)).trans
      ((putBlendModes_keep _).mono (fun x y e => by have := congrArg (fun r => noLayers (noGrad r)) e; exact this))).trans
      ((putGradients_keep _).mono (fun x y e => by have := congrArg (fun r => noLayers (noBlend r)) e; exact this))
  generalize ((a.layerPutLayers E).putBlendModes).putGradients = gr at *
  have e3 := latch_none (putTemplates_writes E _) he
  have e2 := latch_none (putimages_writes E _) e3
  have e1 := latch_none (putfonts_writes E _) e2
  have e0 := latch_none (putSpotColors_writes E gr) e1
  obtain ⟨_, x1⟩ := w1.w hs e0
  have s1 := (k1 hs).1
  have q1 : gr.r.spotColorMap = a.r.spotColorMap := congrArg (fun r : Res => r.spotColorMap) (k1 hs).2
  have q2 : gr.t.fonts = a.t.fonts := congrArg (fun r : Res => r.fonts) (k1 hs).2
  have q3 : gr.r.imgHeap = a.r.imgHeap := congrArg (fun r : Res => r.imgHeap) (k1 hs).2
  have q4 := wfix_registered x1.fix
  have q5 := wfix_m x1.fix
  rw [putSpotColors_re gr (by rw [q1]; exact hr.spots)]
  have w2 := putSpotColors_writes E gr
  have k2 := putSpotColors_keep E gr
  have l2 := putSpotColors_short E gr (by rw [q1]; exact hr.spots)
  generalize gr.putSpotColors E = sp at *
  obtain ⟨_, x2⟩ := w2.w s1 e1
  have s2 := (k2 s1).1
  have r2 : sp.t.fonts = gr.t.fonts := congrArg (fun r : Res => r.fonts) (k2 s1).2
  have r3 : sp.r.imgHeap = gr.r.imgHeap := congrArg (fun r : Res => r.imgHeap) (k2 s1).2
  have r4 := wfix_registered x2.fix
  have r5 := wfix_m x2.fix
  rw [putfonts_re sp s2 e2 (r5.trans (q5.trans hr.sort))]
  have w3 := putfonts_writes E sp
  have k3 := putfonts_keep E sp
  have a3 := putfonts_apart E sp s2 e2 (by rw [r2, q2]; exact hr.fonts)
  generalize sp.putfonts E = fo at *
  obtain ⟨_, x3⟩ := w3.w s2 e2
  have s3 := (k3 s2).1
  have t1 : fo.r.spotColorMap = sp.r.spotColorMap := congrArg (fun r : Res => r.spotColorMap) (k3 s2).2
  have t3 : fo.r.imgHeap = sp.r.imgHeap := congrArg (fun r : Res => r.imgHeap) (k3 s2).2
  have t4 := wfix_registered x3.fix
  have t5 := wfix_m x3.fix
  have same : ∀ k, imageOf fo k = imageOf a k := fun k => by unfold imageOf; rw [t3, r3, q3, t4.1, r4.1, q4.1]
  rw [putimages_re fo (t5.trans (r5.trans (q5.trans hr.sort))) (fun a b i j ha hb => hr.images a b i j ((same a).symm.trans ha) ((same b).symm.trans hb))]
  have w4 := putimages_writes E fo
  have k4 := putimages_keep E fo
  have n4 := putimages_same_n E fo
  generalize fo.putimages E = im at *
  obtain ⟨_, x4⟩ := w4.w s3 e3
  have s4 := (k4 s3).1
  have u1 : im.r.spotColorMap = fo.r.spotColorMap := congrArg (fun r : Res => r.spotColorMap) (k4 s3).2
  have u2 : im.t.fonts = fo.t.fonts := congrArg (fun r : Res => r.fonts) (k4 s3).2
  have u4 := wfix_registered x4.fix
  have u5 := wfix_m x4.fix
  refine ⟨rfl, putTemplates_re im s4 he (u5.trans (t5.trans (r5.trans (q5.trans hr.sort)))) (by rw [u4.2, t4.2, r4.2, q4.2]; exact hr.templates), ?_⟩
  have w5 := putTemplates_writes E im
  have k5 := putTemplates_keep E im
  generalize im.putTemplates E = te at *
  obtain ⟨_, x5⟩ := w5.w s4 he
  have s5 := (k5 s4).1
  have v1 : te.r.spotColorMap = im.r.spotColorMap := congrArg (fun r : Res => r.spotColorMap) (k5 s4).2
  have v2 : te.t.fonts = im.t.fonts := congrArg (fun r : Res => r.fonts) (k5 s4).2
  have v3 : te.r.imgHeap = im.r.imgHeap := congrArg (fun r : Res => r.imgHeap) (k5 s4).2
  have v4 := wfix_registered x5.fix
  have v5 := wfix_m x5.fix
  have same5 : ∀ k, imageOf te k = imageOf im k := fun k => by unfold imageOf; rw [v3, v4.1]
  exact putResourceObj_re te s5 (v5.trans (u5.trans (t5.trans (r5.trans (q5.trans hr.sort))))) (by rw [v1, u1, t1]; exact l2) (by rw [v2, u2]; exact a3)
    (fun a b i j ha hb => n4 a b i j ((same5 a).symm.trans ha) ((same5 b).symm.trans hb))

/-! ### The document -/

theorem sAtt_aliases (f : Fpdf) (hs : f.state = 1) (hA : wfix (sAtt E f) = wfix f.putheader) : aliasesOf (sAtt E f) = aliasesOf f := by
  obtain ⟨a1, a2, a3⟩ := header_alias f hs
  have b1 := (wfix_alias hA).1.trans a1
  have b2 := (wfix_alias hA).2.trans a2
  have b3 := (wfix_pagenum hA).trans (header_same f hs).1
  unfold aliasesOf; rw [b1, b2, b3]

theorem putpages_re (f : Fpdf) (hs : f.state = 1) (ha : AliasComm (aliasesOf f)) (hb : ∀ n, ((lookup n f.p.pageBoxes).getD []).length ≤ 1)
    (he : (Fpdf.putPagesLoop E (defDim (aliased E f)).2 f.page 1 (aliased E f) []).1.err = none) : f.putpages (E.reordered o h) = f.putpages E := by
  rw [putpages_eq', putpages_eq', aliased_re f ha]
  have hq : (aliased E f).state = f.state ∧ (aliased E f).p = f.p := by
    obtain ⟨ps, b, am, h1, _⟩ := aliased_spec E f
    rw [h1]
    exact ⟨rfl, rfl⟩
  rw [putPagesLoop_re _ _ _ _ _ (hq.1.trans hs) he (by rw [hq.2]; exact hb)]

theorem putresources_re (a : Fpdf) (hs : a.state = 1) (hr : ResFixed a)
    (he : ((((((((a.layerPutLayers E).putBlendModes).putGradients).putSpotColors E).putfonts E).putimages E).putTemplates E)).err = none) :
    a.putresources (E.reordered o h) = a.putresources E := by
  obtain ⟨h1, h2, h3⟩ := resources_re (o := o) (h := h) a hs hr he
  unfold Fpdf.putresources
  dsimp only
  rw [h1] at h2
  rw [h1, h2, h3]
  simp only [putjavascript_re]

theorem enddoc_re {v : Nat} {A P M T : List Body} {d : Bytes} {items : List (Nat × Body)} {pdf : Bytes} (f : Fpdf) (hw : Written E f v A P M T d items pdf) (hs : f.state = 1) (he : f.err = none)
    (hg : (f.enddoc E).err = none) (hr : ResFixed f) (ha : AliasComm (aliasesOf f)) (hb : ∀ n, ((lookup n f.p.pageBoxes).getD []).length ≤ 1) :
    f.enddoc (E.reordered o h) = f.enddoc E := by
  obtain ⟨_, _, _, g4, g5, g6, g7⟩ := enddoc_stages E f he hg
  have s0 : f.putheader.state = 1 := (putheader_keeps f hs).1
  have hh : f.putheader.p = f.p ∧ f.putheader.m.catalogSort = f.m.catalogSort := by
    obtain ⟨v, hv⟩ := putheader_spec f hs
    rw [hv]
    exact ⟨rfl, rfl⟩
  have s1 := hw.att.state.trans s0
  have hroot := hw.root hs
  have e1 : (sAtt E f).putpages (E.reordered o h) = sRoot E f := by
    rw [← putpages_eq]
    refine putpages_re (sAtt E f) s1 (by rw [sAtt_aliases f hs hw.att.fix]; exact ha) (by rw [wfix_p hw.att.fix, hh.1]; exact hb) g6
  have s2 : (sAli E f).state = 1 := by
    unfold sAli
    obtain ⟨ps, b, am, h1, _⟩ := aliased_spec E (sAtt E f)
    rw [h1]; exact s1
  have k3 : Kp id (sAli E f) (sLoop E f).1 := putPagesLoop_keep E _ _ _ _ _
  have s3 := (k3 s2).1
  have k4 : Kp id (sLoop E f).1 (sRoot E f) := putPagesRoot_keep _ _ _ _ _
  have s4 := (k4 s3).1
  have m4 : (sRoot E f).m.catalogSort = f.m.catalogSort := by
    have x1 := wfix_m (show wfix (sRoot E f) = wfix (sLoop E f).1 by unfold sRoot; exact rootObj_wfix _ s3 _ _ _ _)
    have x2 := wfix_m hw.loop.fix
    have x3 : (sAli E f).m.catalogSort = (sAtt E f).m.catalogSort := by
      unfold sAli
      obtain ⟨ps, b, am, h1, _⟩ := aliased_spec E (sAtt E f)
      rw [h1]
    have x4 := wfix_m hw.att.fix
    rw [x1, x2, x3, x4, hh.2]
  have same : ∀ k, imageOf (sRoot E f) k = imageOf f k := fun k => by unfold imageOf; rw [hroot.img, hroot.heap]
  have e2 : (sRoot E f).putresources (E.reordered o h) = (sRoot E f).putresources E := by
    refine putresources_re _ s4 ⟨m4.trans hr.sort, by rw [hroot.spo]; exact hr.spots, by rw [hroot.fon]; exact hr.fonts,
      fun a b i j p q => hr.images a b i j ((same a).symm.trans p) ((same b).symm.trans q), by rw [hroot.tem]; exact hr.templates⟩ g4
  unfold Fpdf.enddoc
  have h0 : ¬ f.err ≠ none := by simp [he]
  rw [if_neg h0, if_neg h0]
  dsimp only
  rw [putAttachments_re, putAnnotationsAttachments_re, show ((f.putheader.putAttachments E).putAnnotationsAttachments E).putpages (E.reordered o h) = sRoot E f from e1,
    show ((f.putheader.putAttachments E).putAnnotationsAttachments E).putpages E = sRoot E f from putpages_eq E f, e2]
  simp only [putbookmarks_re, putxmp_re, putinfo_re]


/-! ### Drawing -/

theorem re_T : (E.reordered o h).T = E.T := rfl
theorem re_fontHash : (E.reordered o h).fontHash = E.fontHash := rfl
theorem re_imgHash : (E.reordered o h).imgHash = E.imgHash := rfl
theorem re_coreFont : (E.reordered o h).coreFont = E.coreFont := rfl
theorem re_rnd : (E.reordered o h).rnd = E.rnd := rfl

theorem addFontDef_re : Fpdf.addFontDef (E.reordered o h) = Fpdf.addFontDef E := by funext f a b c d; unfold Fpdf.addFontDef; simp only [re_fontHash]; rfl
theorem addUTF8Font_re : Fpdf.addUTF8Font (E.reordered o h) = Fpdf.addUTF8Font E := by funext f a b c d e; unfold Fpdf.addUTF8Font; simp only [re_fontHash]
theorem addFontFile_re : Fpdf.addFontFile (E.reordered o h) = Fpdf.addFontFile E := by funext f a b c d e; unfold Fpdf.addFontFile; simp only [addFontDef_re]
theorem setFont_re : Fpdf.setFont (E.reordered o h) = Fpdf.setFont E := by funext f a b c; unfold Fpdf.setFont; simp only [addFontDef_re, re_coreFont]
theorem setFontStyle_re : Fpdf.setFontStyle (E.reordered o h) = Fpdf.setFontStyle E := by funext f a; unfold Fpdf.setFontStyle; rw [setFont_re]
theorem restoreFont_re : Fpdf.restoreFont (E.reordered o h) = Fpdf.restoreFont E := by funext f a; unfold Fpdf.restoreFont; simp only [setFont_re]
theorem addPageFormat_re : Fpdf.addPageFormat (E.reordered o h) = Fpdf.addPageFormat E := by funext cb f a b; unfold Fpdf.addPageFormat; simp only [restoreFont_re]
theorem addPage_re : Fpdf.addPage (E.reordered o h) = Fpdf.addPage E := by funext cb f; unfold Fpdf.addPage; simp only [addPageFormat_re]
theorem cellBreak_re : Fpdf.cellBreak (E.reordered o h) = Fpdf.cellBreak E := by funext cb f a; unfold Fpdf.cellBreak; simp only [addPageFormat_re]
theorem cellFormat_re : Fpdf.cellFormat (E.reordered o h) = Fpdf.cellFormat E := by funext cb f a b c d e i j k l; unfold Fpdf.cellFormat; simp only [cellBreak_re]
theorem mcLoop_re (cb : Cb) (P : Fpdf.McParams) (n : Nat) : Fpdf.mcLoop (E.reordered o h) cb P n = Fpdf.mcLoop E cb P n := by
  induction n with
  | zero => funext f a b c; unfold Fpdf.mcLoop; simp only [cellFormat_re]
  | succ n ih => funext f a b c; unfold Fpdf.mcLoop; simp only [cellFormat_re, ih]
theorem multiCell_re : Fpdf.multiCell (E.reordered o h) = Fpdf.multiCell E := by funext cb f a b c d e i; unfold Fpdf.multiCell; simp only [mcLoop_re]
theorem wrLoop_re (cb : Cb) (P : Fpdf.WrParams) (n : Nat) : Fpdf.wrLoop (E.reordered o h) cb P n = Fpdf.wrLoop E cb P n := by
  induction n with
  | zero => funext f a; unfold Fpdf.wrLoop; simp only [cellFormat_re]
  | succ n ih => funext f a; unfold Fpdf.wrLoop; simp only [cellFormat_re, ih]
theorem write_re : Fpdf.write (E.reordered o h) = Fpdf.write E := by funext cb f a b c d; unfold Fpdf.write; simp only [wrLoop_re]
theorem writeAlignedLine_re : Fpdf.writeAlignedLine (E.reordered o h) = Fpdf.writeAlignedLine E := by funext cb a b c d e i j k; unfold Fpdf.writeAlignedLine; simp only [write_re]
theorem writeAligned_re : Fpdf.writeAligned (E.reordered o h) = Fpdf.writeAligned E := by funext cb f a b c d; unfold Fpdf.writeAligned; simp only [writeAlignedLine_re]
theorem subWrite_re : Fpdf.subWrite (E.reordered o h) = Fpdf.subWrite E := by funext cb f a b c d e i; unfold Fpdf.subWrite; simp only [write_re]
theorem imageBreak_re : Fpdf.imageBreak (E.reordered o h) = Fpdf.imageBreak E := by funext cb f a; unfold Fpdf.imageBreak; simp only [addPageFormat_re]
theorem imageOut_re : Fpdf.imageOut (E.reordered o h) = Fpdf.imageOut E := by funext cb f a b c d e i j k l; unfold Fpdf.imageOut; simp only [imageBreak_re]
theorem registerImage_re : Fpdf.registerImage (E.reordered o h) = Fpdf.registerImage E := by funext f a b; unfold Fpdf.registerImage; simp only [re_imgHash]
theorem registerImageFile_re : Fpdf.registerImageFile (E.reordered o h) = Fpdf.registerImageFile E := by funext f a b c; unfold Fpdf.registerImageFile; simp only [registerImage_re]
theorem image_re : Fpdf.image (E.reordered o h) = Fpdf.image E := by funext cb f a b c d e i j k l m; unfold Fpdf.image; simp only [registerImageFile_re, imageOut_re]
theorem useTemplate_re : Fpdf.useTemplate (E.reordered o h) = Fpdf.useTemplate E := by funext f a b c; unfold Fpdf.useTemplate; simp only [re_id]

theorem exec_re (cb : Cb) (f : Fpdf) (op : Op) (h1 : op ≠ .close) (h2 : ∀ b, op ≠ .output b) : f.exec (E.reordered o h) cb op = f.exec E cb op := by
  cases op with
  | close => exact absurd rfl h1
  | output b => exact absurd rfl (h2 b)
  | _ => simp only [Fpdf.exec, addPage_re, addPageFormat_re, re_md5, re_rnd, re_T, addFontFile_re, addFontDef_re, addUTF8Font_re, setFont_re, setFontStyle_re, cellFormat_re, multiCell_re, write_re,
      writeAligned_re, subWrite_re, registerImage_re, registerImageFile_re, image_re, useTemplate_re, re_imgHash]

end Verif.Proof
