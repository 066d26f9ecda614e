import Verif.Proof.Gob
import Verif.Props.Images
/-
C33: serialising a template and reading it back.
-/
namespace Verif.Props
open Verif Verif.Model Verif.Spec Verif.Proof

/-- Template `b` is as good as template `a`: the same box, pages and selected page; the same images, up to their checksums, which are those of the images as they are now; and templates in use that are as good
as one another. -/
inductive AsGood (E : Ext) : Tpl → Tpl → Prop
  | mk {a b : Tpl} (corner : b.corner = a.corner) (size : b.size = a.size) (bytes : b.bytes = a.bytes) (page : b.page = a.page)
      (images : ∀ k im, lookup k a.images = some im → ∃ k', lookup k' b.images = some (reread E im))
      (images' : ∀ k im, lookup k b.images = some im → ∃ k' im', lookup k' a.images = some im' ∧ im = reread E im')
      (new : Tpl → Tpl) (new_mem : ∀ d ∈ a.deps, new d ∈ b.deps) (deps : ∀ d ∈ a.deps, AsGood E d (new d))
      (old : Tpl → Tpl) (old_mem : ∀ e ∈ b.deps, old e ∈ a.deps) (deps' : ∀ e ∈ b.deps, AsGood E (old e) e) : AsGood E a b

/-- The same with "there is a template such that". -/
theorem AsGood.parts {E : Ext} {a b : Tpl} : AsGood E a b → b.corner = a.corner ∧ b.size = a.size ∧ b.bytes = a.bytes ∧ b.page = a.page ∧
    (∀ k im, lookup k a.images = some im → ∃ k', lookup k' b.images = some (reread E im)) ∧
    (∀ k im, lookup k b.images = some im → ∃ k' im', lookup k' a.images = some im' ∧ im = reread E im') ∧
    (∀ d ∈ a.deps, ∃ e ∈ b.deps, AsGood E d e) ∧ ∀ e ∈ b.deps, ∃ d ∈ a.deps, AsGood E d e
  | .mk h1 h2 h3 h4 h5 h6 f f1 f2 g g1 g2 => ⟨h1, h2, h3, h4, h5, h6, fun d hd => ⟨f d, f1 d hd, f2 d hd⟩, fun e he => ⟨g e, g1 e he, g2 e he⟩⟩

open Classical in
theorem AsGood.of {E : Ext} {a b : Tpl} (h1 : b.corner = a.corner) (h2 : b.size = a.size) (h3 : b.bytes = a.bytes) (h4 : b.page = a.page)
    (h5 : ∀ k im, lookup k a.images = some im → ∃ k', lookup k' b.images = some (reread E im))
    (h6 : ∀ k im, lookup k b.images = some im → ∃ k' im', lookup k' a.images = some im' ∧ im = reread E im')
    (h7 : ∀ d ∈ a.deps, ∃ e ∈ b.deps, AsGood E d e) (h8 : ∀ e ∈ b.deps, ∃ d ∈ a.deps, AsGood E d e) : AsGood E a b := by
  refine .mk h1 h2 h3 h4 h5 h6 (fun d => if hd : d ∈ a.deps then (h7 d hd).choose else d) ?_ ?_ (fun e => if he : e ∈ b.deps then (h8 e he).choose else e) ?_ ?_
  · intro d hd; rw [dif_pos hd]; exact (h7 d hd).choose_spec.1
  · intro d hd; rw [dif_pos hd]; exact (h7 d hd).choose_spec.2
  · intro e he; rw [dif_pos he]; exact (h8 e he).choose_spec.1
  · intro e he; rw [dif_pos he]; exact (h8 e he).choose_spec.2

theorem AsGood.id {E : Ext} {a b : Tpl} (h : AsGood E a b) : b.id E = a.id E := by
  unfold Tpl.id
  rw [h.parts.2.2.1, h.parts.2.2.2.1]

/-- **C33** Decoding a serialised template gives a template as good as the one that was serialised: the same box, pages and ID, the same images and, all the way down, templates as good as those it used. `U`
stands for the templates of the program; see `C33_made` for why they are a `World`. -/
theorem C33_roundTrip {E : Ext} {U : Tpl → Prop} (hw : World E U) (t : Tpl) (ht : U t) : AsGood E t (gobDecode E (gobEncode E t)) := by
  show AsGood E t (roundTrip E t)
  have hfc : ∀ c, c ∈ firstClass E t.deps → c ∈ t.deps := fun c hc => List.mem_of_mem_filter hc
  have ih : ∀ c, c ∈ t.deps → AsGood E c (roundTrip E c) := fun c hc => C33_roundTrip hw c (hw.deps t c ht hc)
  have e := roundTrip_eq E t
  refine .of (by rw [e]; rfl) (by rw [e]; rfl) (by rw [e]; rfl) (by rw [e]; rfl) ?_ ?_ ?_ ?_
  · intro k im h
    -- the image of a template that is encoded is there
    have there : ∀ c ∈ firstClass E t.deps, ∀ k0, lookup k0 c.images = some im → ∃ k', lookup k' (roundTrip E t).images = some (reread E im) := by
      intro c hc k0 h0
      obtain ⟨_, _, _, _, i1, _, _, _⟩ := (ih c (hfc c hc)).parts
      obtain ⟨k1, h1⟩ := i1 k0 im h0
      exact ⟨_, (trip_images hw ht).2 (Or.inl ⟨c, hc, k1, rfl, h1⟩)⟩
    cases hk : lookup k (childrenImages E t.deps) with
    | none => exact ⟨k, (trip_images hw ht).2 (Or.inr ⟨im, h, rfl, hk⟩)⟩
    | some v =>
      rcases children_cases E t.deps k with ⟨d, hd, x, _, h1, _⟩ | ⟨_, h2⟩
      · subst h1
        have h3 := hw.owned t d x.1 im ht (hw.deps t d ht hd) h
        obtain ⟨c, hc, rfl | hdc⟩ := covered hw ht _ d hd (Nat.le_refl _)
        · exact there d hc _ h3
        · obtain ⟨k4, h4⟩ := hw.shared c d _ _ (hw.deps t c ht (hfc c hc)) hdc h3
          exact there c hc _ h4
      · rw [hk] at h2; cases h2
  · intro k im h
    rcases (trip_images hw ht).1 h with ⟨c, hc, k', rfl, h1⟩ | ⟨im0, h1, h2, _⟩
    · obtain ⟨_, _, _, _, _, i1, _, _⟩ := (ih c (hfc c hc)).parts
      obtain ⟨k2, im2, h2, h3⟩ := i1 _ _ h1
      obtain ⟨k4, h4⟩ := hw.shared t c _ _ ht (hfc c hc) h2
      exact ⟨k4, im2, h4, h3⟩
    · exact ⟨k, im0, h1, h2⟩
  · intro d hd
    obtain ⟨c, hc, rfl | hdc⟩ := covered hw ht _ d hd (Nat.le_refl _)
    · exact ⟨_, trip_deps.2 ⟨d, hc, Or.inl rfl⟩, ih d hd⟩
    · obtain ⟨_, _, _, _, _, _, i1, _⟩ := (ih c (hfc c hc)).parts
      obtain ⟨e, he, hs⟩ := i1 d hdc
      exact ⟨e, trip_deps.2 ⟨c, hc, Or.inr he⟩, hs⟩
  · intro e he
    obtain ⟨c, hc, rfl | hec⟩ := trip_deps.1 he
    · exact ⟨c, hfc c hc, ih c (hfc c hc)⟩
    · obtain ⟨_, _, _, _, _, _, _, i1⟩ := (ih c (hfc c hc)).parts
      obtain ⟨d, hd, hs⟩ := i1 e hec
      exact ⟨d, hw.closed t c d ht (hfc c hc) hd, hs⟩
termination_by SizeOf.sizeOf t
decreasing_by exact dep_size hc

/-- **C33** Images that the template has under names of its own (not made from the name of a template it uses) keep their names. -/
theorem C33_names {E : Ext} {U : Tpl → Prop} (hw : World E U) (t : Tpl) (ht : U t) (k : Bytes) (im : ImageInfo) (h : lookup k t.images = some im)
    (hk : ∀ d ∈ t.deps, ∀ k', k ≠ nested (d.id E) k') : lookup k (gobDecode E (gobEncode E t)).images = some (reread E im) := by
  refine (trip_images hw ht).2 (Or.inr ⟨im, h, rfl, ?_⟩)
  rcases children_cases E t.deps k with ⟨d, hd, x, _, h1, _⟩ | ⟨_, h2⟩
  · exact absurd h1.symm (hk d hd x.1)
  · exact h2

/-- An image whose checksum is its own: it has not been changed since it was registered. -/
def Intact (E : Ext) (im : ImageInfo) : Prop := im.i = hexEnc (E.imgHash { im with i := [] })

theorem reread_intact {E : Ext} {im : ImageInfo} (h : Intact E im) : reread E im = im := by
  unfold reread
  rw [← h]

/-- **C33** When no image has been changed since it was registered, the decoded template has exactly the same images. -/
theorem C33_images {E : Ext} {U : Tpl → Prop} (hw : World E U) (t : Tpl) (ht : U t) (hi : ∀ k im, lookup k t.images = some im → Intact E im) (im : ImageInfo) :
    (∃ k, lookup k (gobDecode E (gobEncode E t)).images = some im) ↔ ∃ k, lookup k t.images = some im := by
  obtain ⟨_, _, _, _, i1, i2, _, _⟩ := (C33_roundTrip hw t ht).parts
  constructor
  · rintro ⟨k, h⟩
    obtain ⟨k', im', h1, h2⟩ := i2 k im h
    rw [reread_intact (hi k' im' h1)] at h2
    exact ⟨k', by rw [h2]; exact h1⟩
  · rintro ⟨k, h⟩
    obtain ⟨k', h1⟩ := i1 k im h
    rw [reread_intact (hi k im h)] at h1
    exact ⟨k', h1⟩

/-- **C33** The decoded template brings along templates with exactly the same IDs. -/
theorem C33_templates {E : Ext} {U : Tpl → Prop} (hw : World E U) (t : Tpl) (ht : U t) (x : Bytes) :
    (∃ d ∈ (gobDecode E (gobEncode E t)).deps, d.id E = x) ↔ ∃ d ∈ t.deps, d.id E = x := by
  obtain ⟨_, _, _, _, _, _, d1, d2⟩ := (C33_roundTrip hw t ht).parts
  constructor
  · rintro ⟨e, he, hx⟩
    obtain ⟨d, hd, hs⟩ := d2 e he
    exact ⟨d, hd, hs.id.symm.trans hx⟩
  · rintro ⟨d, hd, hx⟩
    obtain ⟨e, he, hs⟩ := d1 d hd
    exact ⟨e, he, hs.id.trans hx⟩

/-! ### The templates of a program -/

/-- A name that a user may give to an image: it does not look like those made for images of templates. -/
def Ordinary (k : Bytes) : Prop := ∀ x k', k ≠ nested (hexEnc x) k'

mutual
/-- The images and templates of a document or of a template under construction. `U` are the templates of the program, `V` the images it registers. -/
inductive Built (E : Ext) (U : Tpl → Prop) (V : ImageInfo → Prop) : Bench → Prop
  /-- a new document, or a template that is attached to none -/
  | new : Built E U V {}
  /-- registering an image -/
  | register {b : Bench} (k : Bytes) (im : ImageInfo) : Built E U V b → Ordinary k → V im → Built E U V (b.register E k im)
  /-- using a template -/
  | use {b : Bench} {t : Tpl} : Built E U V b → U t → Made E U V t → Built E U V (b.use E t)
  /-- a template that is created by a document starts with the images of the document -/
  | create {b : Bench} : Built E U V b → Built E U V { images := b.images }
/-- The templates that can be made. -/
inductive Made (E : Ext) (U : Tpl → Prop) (V : ImageInfo → Prop) : Tpl → Prop
  | finish {b : Bench} (corner : Rat × Rat) (size : Size) (bytes : List Bytes) (page : Nat) : Built E U V b → Made E U V (b.finish corner size bytes page)
  | fromPage {t t' : Tpl} (page : Nat) : Made E U V t → t.fromPage page = some t' → Made E U V t'
end

/-- What holds of the images and templates that have been used. -/
structure BenchOk (E : Ext) (U : Tpl → Prop) (V : ImageInfo → Prop) (images : List (Bytes × ImageInfo)) (ts : List Tpl) : Prop where
  names : (keys images).Nodup
  known : ∀ k im, lookup k images = some im → ∃ im0, V im0 ∧ im = reread E { im0 with n := 0 }
  owned : ∀ d k im, U d → lookup (nested (d.id E) k) images = some im → lookup k d.images = some im
  deps : ∀ d ∈ ts, U d
  closed : ∀ d ∈ ts, ∀ e ∈ d.deps, e ∈ ts
  shared : ∀ d ∈ ts, ∀ k im, lookup k d.images = some im → ∃ k', lookup k' images = some im

/-- The templates noted in a map. -/
def noted (m : List (Bytes × Tpl)) : List Tpl := (sortKeys bytesLe (keys m)).filterMap fun k => lookup k m

theorem mem_noted {m : List (Bytes × Tpl)} {d : Tpl} : d ∈ noted m ↔ ∃ k, lookup k m = some d := by
  unfold noted
  rw [List.mem_filterMap]
  constructor
  · rintro ⟨k, _, h⟩; exact ⟨k, h⟩
  · rintro ⟨k, h⟩; exact ⟨k, mem_sortKeys.2 (lookup_keys h), h⟩

theorem use_images {E : Ext} {ex : List Bytes} (t : Tpl) (hn : (keys t.images).Nodup) (k : Bytes) (m : List (Bytes × ImageInfo)) :
    (∃ k0 im, k = nested (t.id E) k0 ∧ lookup k0 t.images = some im ∧ im.i ∉ ex ∧
      lookup k (t.images.foldl (fun m x => if x.2.i ∈ ex then m else Model.insert (nested (t.id E) x.1) x.2 m) m) = some im) ∨
    ((∀ k0 im, k = nested (t.id E) k0 → lookup k0 t.images = some im → im.i ∈ ex) ∧
      lookup k (t.images.foldl (fun m x => if x.2.i ∈ ex then m else Model.insert (nested (t.id E) x.1) x.2 m) m) = lookup k m) := by
  have e : ∀ (l : List (Bytes × ImageInfo)) m, l.foldl (fun m x => if x.2.i ∈ ex then m else Model.insert (nested (t.id E) x.1) x.2 m) m =
      (l.filter fun x => decide (x.2.i ∉ ex)).foldl (fun m x => Model.insert (nested (t.id E) x.1) x.2 m) m := by
    intro l
    induction l with
    | nil => intro m; rfl
    | cons a r ih =>
      intro m
      rw [List.foldl_cons, ih]
      by_cases h : a.2.i ∈ ex <;> simp [h]
  rw [e]
  rcases fold_insert_cases (fun x : Bytes × ImageInfo => nested (t.id E) x.1) (fun x => x.2) k (t.images.filter fun x => decide (x.2.i ∉ ex)) m with ⟨x, hx, h1, h2⟩ | ⟨h1, h2⟩
  · obtain ⟨hx1, hx2⟩ := List.mem_filter.1 hx
    exact Or.inl ⟨x.1, x.2, h1.symm, (mem_lookup hn).2 hx1, by simpa using hx2, h2⟩
  · refine Or.inr ⟨?_, h2⟩
    intro k0 im hk h
    by_contra q
    exact h1 (k0, im) (List.mem_filter.mpr ⟨(mem_lookup hn).1 h, by simpa using q⟩) hk.symm

theorem use_templates {E : Ext} (t : Tpl) (m : List (Bytes × Tpl)) (k : Bytes) : lookup k (t.deps.foldl (fun m d => Model.insert (d.id E) d m) (Model.insert (t.id E) t m)) =
    lookup k (t.deps.foldl (fun m d => Model.insert (d.id E) d m) (Model.insert (t.id E) t m)) ∧
    ((∃ d, (d = t ∨ d ∈ t.deps) ∧ d.id E = k ∧ lookup k (t.deps.foldl (fun m d => Model.insert (d.id E) d m) (Model.insert (t.id E) t m)) = some d) ∨
     ((∀ d, (d = t ∨ d ∈ t.deps) → d.id E ≠ k) ∧ lookup k (t.deps.foldl (fun m d => Model.insert (d.id E) d m) (Model.insert (t.id E) t m)) = lookup k m)) := by
  refine ⟨rfl, ?_⟩
  rcases fold_insert_cases (fun d : Tpl => d.id E) (fun d => d) k t.deps (Model.insert (t.id E) t m) with ⟨x, hx, h1, h2⟩ | ⟨h1, h2⟩
  · exact Or.inl ⟨x, Or.inr hx, h1, h2⟩
  · by_cases e : t.id E = k
    · refine Or.inl ⟨t, Or.inl rfl, e, ?_⟩
      rw [h2, lookup_insert, if_pos e.symm]
    · refine Or.inr ⟨?_, ?_⟩
      · rintro d (rfl | hd)
        · exact e
        · exact h1 d hd
      · rw [h2, lookup_insert, if_neg (fun q => e q.symm)]

/-- Equal digests come from equal images. -/
def NoClash (E : Ext) (V : ImageInfo → Prop) : Prop :=
  ∀ a b, V a → V b → hexEnc (E.imgHash { a with n := 0, i := [] }) = hexEnc (E.imgHash { b with n := 0, i := [] }) → reread E { a with n := 0 } = reread E { b with n := 0 }

theorem fromPage_parts {t t' : Tpl} {p : Nat} (h : t.fromPage p = some t') : t'.images = t.images ∧ t'.deps = t.deps := by
  unfold Tpl.fromPage at h
  split at h
  · cases h
  · split at h
    · cases h
    · split at h <;> cases h
      · exact ⟨rfl, rfl⟩
      · exact ⟨rfl, rfl⟩

mutual
theorem built_ok {E : Ext} {U : Tpl → Prop} {V : ImageInfo → Prop} (hid : ∀ a b, U a → U b → a.id E = b.id E → a = b) (hV : NoClash E V) {b : Bench} :
    Built E U V b → BenchOk E U V b.images (noted b.templates) ∧ ∀ k d, lookup k b.templates = some d → d.id E = k
  | .new => ⟨⟨by simp [keys], by simp [lookup], by simp [lookup], by simp [mem_noted, lookup], by simp [mem_noted, lookup], by simp [mem_noted, lookup]⟩, by simp [lookup]⟩
  | .register (b := b) k im hb hk hv => by
    obtain ⟨h, h'⟩ := built_ok hid hV hb
    unfold Bench.register
    cases hl : lookup k b.images with
    | some v => exact ⟨h, h'⟩
    | none =>
      refine ⟨⟨(insert_keys _ _ _ h.names).1, ?_, ?_, h.deps, h.closed, ?_⟩, h'⟩
      · intro k1 im1 h1
        rw [lookup_insert] at h1
        split at h1
        · cases h1; exact ⟨im, hv, rfl⟩
        · exact h.known _ _ h1
      · intro d k1 im1 hd h1
        rw [lookup_insert] at h1
        split at h1
        · rename_i e; exact absurd e.symm (hk _ _)
        · exact h.owned d k1 im1 hd h1
      · intro d hd k1 im1 h1
        obtain ⟨k2, h2⟩ := h.shared d hd k1 im1 h1
        refine ⟨k2, ?_⟩
        rw [lookup_insert, if_neg]
        · exact h2
        · rintro rfl; rw [hl] at h2; cases h2
  | .use (b := b) (t := t) hb hu ht => by
    obtain ⟨h, h'⟩ := built_ok hid hV hb
    have m := made_ok hid hV ht
    have hns : ∀ d, d ∈ noted (b.use E t).templates ↔ d = t ∨ d ∈ t.deps ∨ d ∈ noted b.templates := by
      intro d
      rw [mem_noted, mem_noted]
      constructor
      · rintro ⟨k, hk⟩
        rcases (use_templates (E := E) t b.templates k).2 with ⟨d', h1, _, h3⟩ | ⟨_, h2⟩
        · replace hk : lookup k (t.deps.foldl (fun m d => Model.insert (d.id E) d m) (Model.insert (t.id E) t b.templates)) = some d := hk
          rw [h3] at hk
          cases hk
          rcases h1 with h1 | h1
          · exact Or.inl h1
          · exact Or.inr (Or.inl h1)
        · replace hk : lookup k (t.deps.foldl (fun m d => Model.insert (d.id E) d m) (Model.insert (t.id E) t b.templates)) = some d := hk
          rw [h2] at hk
          exact Or.inr (Or.inr ⟨k, hk⟩)
      · intro hd
        have hud : U d := by
          rcases hd with rfl | hd | ⟨k, hd⟩
          · exact hu
          · exact m.deps d hd
          · exact h.deps d (mem_noted.2 ⟨k, hd⟩)
        refine ⟨d.id E, ?_⟩
        show lookup (d.id E) (t.deps.foldl (fun m d => Model.insert (d.id E) d m) (Model.insert (t.id E) t b.templates)) = some d
        rcases (use_templates (E := E) t b.templates (d.id E)).2 with ⟨d', h1, h2, h3⟩ | ⟨h1, h2⟩
        · have hud' : U d' := by
            rcases h1 with rfl | h1
            · exact hu
            · exact m.deps d' h1
          rw [h3, hid d' d hud' hud h2]
        · rw [h2]
          rcases hd with rfl | hd | ⟨k, hd⟩
          · exact absurd rfl (h1 d (Or.inl rfl))
          · exact absurd rfl (h1 d (Or.inr hd))
          · rw [h' k d hd]; exact hd
    -- images that were there are still there, with the same values
    have stay : ∀ k im, lookup k b.images = some im → lookup k (b.use E t).images = some im := by
      intro k im hk
      show lookup k (t.images.foldl (fun m x => if x.2.i ∈ b.images.map (·.2.i) then m else Model.insert (nested (t.id E) x.1) x.2 m) b.images) = some im
      rcases use_images (E := E) (ex := b.images.map (·.2.i)) t m.names k b.images with ⟨k0, im0, e1, e2, _, e4⟩ | ⟨_, e⟩
      · rw [e4]
        subst e1
        have := h.owned t k0 im hu hk
        rw [this] at e2
        cases e2
        rfl
      · rw [e]; exact hk
    have from_ : ∀ k im, lookup k (b.use E t).images = some im → lookup k b.images = some im ∨ ∃ k0, k = nested (t.id E) k0 ∧ lookup k0 t.images = some im := by
      intro k im hk
      replace hk : lookup k (t.images.foldl (fun m x => if x.2.i ∈ b.images.map (·.2.i) then m else Model.insert (nested (t.id E) x.1) x.2 m) b.images) = some im := hk
      rcases use_images (E := E) (ex := b.images.map (·.2.i)) t m.names k b.images with ⟨k0, im0, e1, e2, _, e4⟩ | ⟨_, e⟩
      · rw [e4] at hk
        cases hk
        exact Or.inr ⟨k0, e1, e2⟩
      · rw [e] at hk
        exact Or.inl hk
    have brought : ∀ k im, lookup k t.images = some im → ∃ k', lookup k' (b.use E t).images = some im := by
      intro k im hk
      rcases use_images (E := E) (ex := b.images.map (·.2.i)) t m.names (nested (t.id E) k) b.images with ⟨k0, im0, e1, e2, _, e4⟩ | ⟨e1, e⟩
      · have := (nested_ids e1).2
        subst this
        rw [hk] at e2
        cases e2
        exact ⟨_, e4⟩
      · obtain ⟨x, hx, hxi⟩ := List.mem_map.1 (e1 k im rfl hk)
        have hx' := (mem_lookup h.names).2 (show (x.1, x.2) ∈ b.images from hx)
        obtain ⟨a0, ha0, ha⟩ := h.known _ _ hx'
        obtain ⟨b0, hb0, hb'⟩ := m.known _ _ hk
        have : x.2 = im := by
          rw [ha, hb'] at hxi ⊢
          exact hV a0 b0 ha0 hb0 hxi
        exact ⟨x.1, by rw [← this]; exact stay _ _ hx'⟩
    refine ⟨⟨?_, ?_, ?_, ?_, ?_, ?_⟩, ?_⟩
    · show (keys (t.images.foldl (fun m x => if x.2.i ∈ b.images.map (·.2.i) then m else Model.insert (nested (t.id E) x.1) x.2 m) b.images)).Nodup
      generalize b.images.map (·.2.i) = ex
      have key : ∀ (l : List (Bytes × ImageInfo)) m, (keys m).Nodup → (keys (l.foldl (fun m x => if x.2.i ∈ ex then m else Model.insert (nested (t.id E) x.1) x.2 m) m)).Nodup := by
        intro l
        induction l with
        | nil => intro m h; exact h
        | cons a r ih =>
          intro m h
          rw [List.foldl_cons]
          refine ih _ ?_
          split
          · exact h
          · exact (insert_keys _ _ _ h).1
      exact key _ _ h.names
    · intro k im hk
      rcases from_ k im hk with hk | ⟨k0, _, hk⟩
      · exact h.known _ _ hk
      · exact m.known _ _ hk
    · intro d k im hd hk
      rcases from_ _ _ hk with hk | ⟨k0, e, hk⟩
      · exact h.owned d k im hd hk
      · obtain ⟨e1, e2⟩ := nested_ids e
        rw [hid d t hd hu e1, e2]
        exact hk
    · intro d hd
      rcases (hns d).1 hd with rfl | hd | hd
      · exact hu
      · exact m.deps d hd
      · exact h.deps d hd
    · intro d hd e he
      rw [hns]
      rcases (hns d).1 hd with rfl | hd | hd
      · exact Or.inr (Or.inl he)
      · exact Or.inr (Or.inl (m.closed d hd e he))
      · exact Or.inr (Or.inr (h.closed d hd e he))
    · intro d hd k im hk
      rcases (hns d).1 hd with rfl | hd | hd
      · exact brought k im hk
      · obtain ⟨k1, h1⟩ := m.shared d hd k im hk
        exact brought k1 im h1
      · obtain ⟨k1, h1⟩ := h.shared d hd k im hk
        exact ⟨k1, stay _ _ h1⟩
    · intro k d hk
      rcases (use_templates (E := E) t b.templates k).2 with ⟨d', _, h2, h3⟩ | ⟨_, h2⟩
      · replace hk : lookup k (t.deps.foldl (fun m d => Model.insert (d.id E) d m) (Model.insert (t.id E) t b.templates)) = some d := hk
        rw [h3] at hk
        cases hk
        exact h2
      · replace hk : lookup k (t.deps.foldl (fun m d => Model.insert (d.id E) d m) (Model.insert (t.id E) t b.templates)) = some d := hk
        rw [h2] at hk
        exact h' k d hk
  | .create hb => by
    obtain ⟨h, h'⟩ := built_ok hid hV hb
    exact ⟨⟨h.names, h.known, h.owned, by simp [mem_noted, lookup], by simp [mem_noted, lookup], by simp [mem_noted, lookup]⟩, by simp [lookup]⟩

theorem made_ok {E : Ext} {U : Tpl → Prop} {V : ImageInfo → Prop} (hid : ∀ a b, U a → U b → a.id E = b.id E → a = b) (hV : NoClash E V) {t : Tpl} :
    Made E U V t → BenchOk E U V t.images t.deps
  | .finish _ _ _ _ hb => (built_ok hid hV hb).1
  | .fromPage _ ht hp => by
    obtain ⟨e1, e2⟩ := fromPage_parts hp
    rw [e1, e2]
    exact made_ok hid hV ht
end

/-- **C33** The templates that a program makes are a world, when templates with the same ID are the same template, images with the same digest are the same image, and no image is given a name that looks like the
name of an image of a template. -/
theorem C33_made {E : Ext} {U : Tpl → Prop} {V : ImageInfo → Prop} (hU : ∀ t, U t → Made E U V t) (hid : ∀ a b, U a → U b → a.id E = b.id E → a = b) (hV : NoClash E V) : World E U :=
  ⟨hid, fun t d ht hd => (made_ok hid hV (hU t ht)).deps d hd, fun t d e ht hd he => (made_ok hid hV (hU t ht)).closed d hd e he, fun t ht => (made_ok hid hV (hU t ht)).names,
    fun t d k im ht hd h => (made_ok hid hV (hU t ht)).owned d k im hd h, fun t d k im ht hd h => (made_ok hid hV (hU t ht)).shared d hd k im h⟩

/-- **C33** … and their images have not been changed. -/
theorem C33_made_intact {E : Ext} {U : Tpl → Prop} {V : ImageInfo → Prop} (hid : ∀ a b, U a → U b → a.id E = b.id E → a = b) (hV : NoClash E V) {t : Tpl} (ht : Made E U V t) (k : Bytes) (im : ImageInfo)
    (h : lookup k t.images = some im) : Intact E im := by
  obtain ⟨im0, _, rfl⟩ := (made_ok hid hV ht).known k im h
  rfl

/-! ### A program with three templates -/

/-- A template that shows `flag`. -/
def stampT : Tpl := (Bench.register byData {} (B "a") flag).finish (0, 0) { wd := 10, ht := 10 } [[], B "q Q\n"] 1
/-- A template that shows `glass` and the template `stampT`. -/
def frameT : Tpl := ((Bench.register byData {} (B "b") glass).use byData stampT).finish (0, 0) { wd := 20, ht := 10 } [[], B "/TPL71200a Do\n"] 1
/-- A template of two pages that shows both. -/
def sheetT : Tpl := (((Bench.register byData {} (B "c") flag).use byData stampT).use byData frameT).finish (1, 1) { wd := 30, ht := 10 } [[], B "1\n", B "2\n"] 2

/-- The templates and the images of this program. -/
def ours (t : Tpl) : Prop := t = stampT ∨ t = frameT ∨ t = sheetT
@[inherit_doc ours] def pics (im : ImageInfo) : Prop := im = flag ∨ im = glass

theorem short_ordinary (c : UInt8) : Ordinary [c] := by
  intro x k h
  have := congrArg List.length h
  have e1 : (B "t").length = 1 := by decide
  have e2 : (B "-").length = 1 := by decide
  simp only [nested, List.length_append, List.length_cons, List.length_nil, e1, e2] at this
  omega

theorem ours_made (t : Tpl) (h : ours t) : Made byData ours pics t := by
  have o : ∀ c : UInt8, Ordinary [c] := short_ordinary
  have h1 : Made byData ours pics stampT := .finish _ _ _ _ (.register _ _ .new (o 0x61) (Or.inl rfl))
  have h2 : Made byData ours pics frameT := .finish _ _ _ _ (.use (.register _ _ .new (o 0x62) (Or.inr rfl)) (Or.inl rfl) h1)
  have h3 : Made byData ours pics sheetT := .finish _ _ _ _ (.use (.use (.register _ _ .new (o 0x63) (Or.inl rfl)) (Or.inl rfl) h1) (Or.inr (Or.inl rfl)) h2)
  rcases h with rfl | rfl | rfl
  · exact h1
  · exact h2
  · exact h3

theorem ours_ids (a b : Tpl) (ha : ours a) (hb : ours b) (h : a.id byData = b.id byData) : a = b := by
  have k1 : stampT.id byData ≠ frameT.id byData := by decide +kernel
  have k2 : stampT.id byData ≠ sheetT.id byData := by decide +kernel
  have k3 : frameT.id byData ≠ sheetT.id byData := by decide +kernel
  rcases ha with rfl | rfl | rfl <;> rcases hb with rfl | rfl | rfl
  · rfl
  · exact absurd h k1
  · exact absurd h k2
  · exact absurd h.symm k1
  · rfl
  · exact absurd h k3
  · exact absurd h.symm k2
  · exact absurd h.symm k3
  · rfl

theorem pics_clash : NoClash byData pics := by
  intro a b ha hb h
  rcases ha with rfl | rfl <;> rcases hb with rfl | rfl
  · rfl
  · exact absurd h (by decide +kernel)
  · exact absurd h (by decide +kernel)
  · rfl

/-- The hypotheses of the theorems above hold of it. -/
theorem ours_world : World byData ours := C33_made ours_made ours_ids pics_clash

/-- `sheetT` uses both other templates and has an image of its own and one that came with them; only `frameT` is encoded in it, since it brings `stampT` along. -/
example : sheetT.deps.length = 2 ∧ sheetT.images.length = 2 ∧ (firstClass byData sheetT.deps).length = 1 ∧ (roundTrip byData sheetT).deps.length = 2 := by
  refine ⟨?_, ?_, ?_, ?_⟩ <;> decide +kernel

/-! ### Where it fails -/

/-- Digests that depend on the resolution of an image and on its object number, as those of the library do. -/
def byAll : Ext := { byData with imgHash := fun im => im.data ++ im.pal ++ [UInt8.ofNat im.dpi.num.toNat, UInt8.ofNat im.n] }

/-- A template with one image, whose resolution was then set with `SetDpi` (`/repo/def.go:256-258`). -/
def scaledT : Tpl :=
  let t := (Bench.register byAll {} (B "a") flag).finish (0, 0) { wd := 10, ht := 10 } [[], B "q Q\n"] 1
  .mk t.corner t.size t.bytes t.page (t.images.map fun x => (x.1, { x.2 with dpi := 150 })) t.deps

/-- The same template after it was part of a document that was written: the writer has given the image an object number (`/repo/fpdf.go:4379`). -/
def writtenT : Tpl :=
  let t := (Bench.register byAll {} (B "a") flag).finish (0, 0) { wd := 10, ht := 10 } [[], B "q Q\n"] 1
  .mk t.corner t.size t.bytes t.page (t.images.map fun x => (x.1, { x.2 with n := 7 })) t.deps

/-- **C33** refuted for images that have been changed: the ID under which the content of the template shows its image (`/I… Do`) is not the ID of the image of the decoded template. So it is after `SetDpi`, and when
a template is serialised after a document that uses it has been written. -/
theorem C33_changed_false : (scaledT.images.map (·.2.i) = [hexEnc (flag.data ++ flag.pal ++ [72, 0])] ∧ (roundTrip byAll scaledT).images.map (·.2.i) = [hexEnc (flag.data ++ flag.pal ++ [150, 0])]) ∧
    (writtenT.images.map (·.2.i) = [hexEnc (flag.data ++ flag.pal ++ [72, 0])] ∧ (roundTrip byAll writtenT).images.map (·.2.i) = [hexEnc (flag.data ++ flag.pal ++ [72, 7])]) := by
  refine ⟨⟨?_, ?_⟩, ?_, ?_⟩ <;> decide +kernel

/-- A template with the content of `stampT`, but larger. -/
def bigStampT : Tpl := (Bench.register byData {} (B "a") flag).finish (0, 0) { wd := 90, ht := 90 } [[], B "q Q\n"] 1
/-- A template that shows `frameT`, and `bigStampT`. -/
def twinsT : Tpl := ((Bench.use byData {} frameT).use byData bigStampT).finish (0, 0) { wd := 30, ht := 10 } [[], B "3\n"] 1

/-- **C33** refuted for templates with the same content and different boxes: they have the same ID, and the decoded template shows the wrong one. -/
theorem C33_twins_false : bigStampT.id byData = stampT.id byData ∧ (90 : Rat) ∈ twinsT.deps.map (·.size.wd) ∧ (90 : Rat) ∉ (roundTrip byData twinsT).deps.map (·.size.wd) := by
  refine ⟨?_, ?_, ?_⟩ <;> decide +kernel

/-! ### Pages of a template -/

/-- **C63** `FromPage` gives a template exactly for the pages 1 to `NumPages`; it shows that page, and has the box, pages, images and templates of the original. -/
theorem C63_fromPage (t : Tpl) (page : Nat) : ((t.fromPage page).isSome ↔ 1 ≤ page ∧ page ≤ t.numPages) ∧
    ∀ t', t.fromPage page = some t' → t'.page = page ∧ t'.corner = t.corner ∧ t'.size = t.size ∧ t'.bytes = t.bytes ∧ t'.images = t.images ∧ t'.deps = t.deps := by
  unfold Tpl.fromPage
  by_cases h1 : page = 0
  · rw [if_pos h1]
    exact ⟨by simp; omega, by simp⟩
  · rw [if_neg h1]
    by_cases h2 : page > t.numPages
    · rw [if_pos h2]
      exact ⟨by simp; omega, by simp⟩
    · rw [if_neg h2]
      by_cases h3 : t.page = page
      · rw [if_pos h3]
        refine ⟨by simp; omega, ?_⟩
        rintro t' ⟨⟩
        exact ⟨h3, rfl, rfl, rfl, rfl, rfl⟩
      · rw [if_neg h3]
        refine ⟨by simp; omega, ?_⟩
        rintro t' ⟨⟩
        exact ⟨rfl, rfl, rfl, rfl, rfl, rfl⟩

/-- **C63** `FromPages` gives as many templates as there are pages, in order, and none of them fails: its errors may be ignored, as the library does. -/
theorem C63_fromPages (t : Tpl) : t.fromPages.length = t.numPages ∧ ∀ n, n < t.numPages → ∃ t', t.fromPages[n]? = some (some t') ∧ t'.page = n + 1 ∧ t'.bytes = t.bytes ∧ t'.size = t.size := by
  unfold Tpl.fromPages
  refine ⟨by simp, fun n hn => ?_⟩
  obtain ⟨h1, h2⟩ := C63_fromPage t (n + 1)
  obtain ⟨t', ht⟩ := Option.isSome_iff_exists.1 (h1.2 ⟨by omega, by omega⟩)
  obtain ⟨a, _, b, c, _, _⟩ := h2 t' ht
  refine ⟨t', ?_, a, c, b⟩
  rw [List.getElem?_map, List.getElem?_range hn, Option.map_some, ht]

example : sheetT.numPages = 2 ∧ (sheetT.fromPage 1).isSome = true ∧ (sheetT.fromPage 3).isSome = false := by refine ⟨?_, ?_, ?_⟩ <;> decide +kernel

end Verif.Props
