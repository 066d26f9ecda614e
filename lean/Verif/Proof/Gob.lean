import Verif.Model.Gob
import Verif.Proof.Resources
import Verif.Proof.Fonts
import Mathlib.Tactic.ByContra
/- Serialisation of templates: the tree that decoding gives back, and how templates come to have what they use. -/
namespace Verif.Proof
open Verif Verif.Model Verif.Spec

/-! ### Filling a map -/

theorem fold_insert_cases {α β γ : Type} [DecidableEq α] (g : γ → α) (v : γ → β) (k : α) (l : List γ) : ∀ m : List (α × β),
    (∃ x ∈ l, g x = k ∧ lookup k (l.foldl (fun m x => Model.insert (g x) (v x) m) m) = some (v x)) ∨
    ((∀ x ∈ l, g x ≠ k) ∧ lookup k (l.foldl (fun m x => Model.insert (g x) (v x) m) m) = lookup k m) := by
  induction l with
  | nil => intro m; exact Or.inr ⟨by simp, rfl⟩
  | cons a r ih =>
    intro m
    rw [List.foldl_cons]
    rcases ih (Model.insert (g a) (v a) m) with ⟨x, hx, h1, h2⟩ | ⟨h1, h2⟩
    · exact Or.inl ⟨x, List.mem_cons_of_mem _ hx, h1, h2⟩
    · by_cases e : g a = k
      · refine Or.inl ⟨a, List.mem_cons_self, e, ?_⟩
        rw [h2, lookup_insert, if_pos e.symm]
      · refine Or.inr ⟨?_, ?_⟩
        · intro x hx
          rcases List.mem_cons.1 hx with rfl | hx
          · exact e
          · exact h1 x hx
        · rw [h2, lookup_insert, if_neg (fun q => e q.symm)]

theorem insert_keys {α β : Type} [DecidableEq α] (k : α) (v : β) : ∀ m : List (α × β), (keys m).Nodup → (keys (Model.insert k v m)).Nodup ∧ ∀ a, a ∈ keys (Model.insert k v m) ↔ a = k ∨ a ∈ keys m
  | [], _ => by simp [keys, Model.insert]
  | (a, b) :: r, h => by
    have h' : (keys r).Nodup ∧ a ∉ keys r := by
      simp only [keys, List.map_cons, List.nodup_cons] at h ⊢
      exact ⟨h.2, h.1⟩
    unfold Model.insert
    split
    · rename_i e
      subst e
      refine ⟨h, fun c => ?_⟩
      simp [keys]
    · rename_i e
      obtain ⟨i1, i2⟩ := insert_keys k v r h'.1
      refine ⟨?_, fun c => ?_⟩
      · show (a :: keys (Model.insert k v r)).Nodup
        rw [List.nodup_cons]
        refine ⟨fun q => ?_, i1⟩
        rcases (i2 a).1 q with q | q
        · exact e q
        · exact h'.2 q
      · show c ∈ a :: keys (Model.insert k v r) ↔ c = k ∨ c ∈ a :: keys r
        rw [List.mem_cons, List.mem_cons, i2]
        constructor
        · rintro (q | q | q)
          · exact Or.inr (Or.inl q)
          · exact Or.inl q
          · exact Or.inr (Or.inr q)
        · rintro (q | q | q)
          · exact Or.inr (Or.inl q)
          · exact Or.inl q
          · exact Or.inr (Or.inr q)

theorem fold_insert_nodup {α β γ : Type} [DecidableEq α] (g : γ → α) (v : γ → β) (l : List γ) : ∀ m : List (α × β), (keys m).Nodup →
    (keys (l.foldl (fun m x => Model.insert (g x) (v x) m) m)).Nodup := by
  induction l with
  | nil => intro m h; exact h
  | cons a r ih => intro m h; exact ih _ (insert_keys _ _ m h).1

theorem mem_lookup {α β : Type} [DecidableEq α] {l : List (α × β)} (h : (keys l).Nodup) {k : α} {v : β} : lookup k l = some v ↔ (k, v) ∈ l := by
  induction l with
  | nil => simp [lookup]
  | cons a r ih =>
    obtain ⟨a, b⟩ := a
    have h' : a ∉ keys r ∧ (keys r).Nodup := by simpa [keys] using h
    unfold lookup
    split
    · rename_i e
      subst e
      simp only [Option.some.injEq, List.mem_cons, Prod.mk.injEq, true_and]
      constructor
      · intro q; exact Or.inl q.symm
      · rintro (q | q)
        · exact q.symm
        · exact absurd (List.mem_map.mpr ⟨_, q, rfl⟩) h'.1
    · rename_i e
      rw [ih h'.2]
      simp only [List.mem_cons, Prod.mk.injEq]
      constructor
      · exact Or.inr
      · rintro (⟨q, _⟩ | q)
        · exact absurd q.symm e
        · exact q

theorem mem_keys {α β : Type} [DecidableEq α] {l : List (α × β)} {k : α} : k ∈ keys l ↔ ∃ v, lookup k l = some v := by
  constructor
  · induction l with
    | nil => intro h; simp [keys] at h
    | cons a r ih =>
      intro h
      obtain ⟨a, b⟩ := a
      unfold lookup
      split
      · exact ⟨b, rfl⟩
      · rename_i e
        have : k ∈ keys r := by
          simp only [keys, List.map_cons, List.mem_cons] at h
          rcases h with h | h
          · exact absurd h.symm e
          · exact h
        exact ih this
  · rintro ⟨v, h⟩
    exact lookup_keys h

/-! ### Names of images of templates -/

theorem hex_no_dash (x : Bytes) : ∀ c ∈ hexEnc x, c ≠ 0x2D := by
  intro c hc
  obtain ⟨b, _, hb⟩ := List.mem_flatMap.1 hc
  have key : ∀ b : UInt8, hexDigit (b.toNat / 16) ≠ 0x2D ∧ hexDigit (b.toNat % 16) ≠ 0x2D := forall_byte (by decide +kernel)
  simp only [List.mem_cons, List.not_mem_nil, or_false] at hb
  rcases hb with rfl | rfl
  · exact (key b).1
  · exact (key b).2

theorem split_dash : ∀ {a b r s : Bytes}, (∀ c ∈ a, c ≠ 0x2D) → (∀ c ∈ b, c ≠ 0x2D) → a ++ 0x2D :: r = b ++ 0x2D :: s → a = b ∧ r = s
  | [], [], _, _, _, _, h => by simpa using h
  | [], b :: bs, _, _, _, h2, h => by
    simp only [List.nil_append, List.cons_append, List.cons.injEq] at h
    exact absurd h.1.symm (h2 b List.mem_cons_self)
  | a :: as, [], _, _, h1, _, h => by
    simp only [List.nil_append, List.cons_append, List.cons.injEq] at h
    exact absurd h.1 (h1 a List.mem_cons_self)
  | a :: as, b :: bs, _, _, h1, h2, h => by
    simp only [List.cons_append, List.cons.injEq] at h
    obtain ⟨e1, e2⟩ := split_dash (fun c hc => h1 c (List.mem_cons_of_mem _ hc)) (fun c hc => h2 c (List.mem_cons_of_mem _ hc)) h.2
    exact ⟨by rw [h.1, e1], e2⟩

theorem nested_inj {x y k l : Bytes} (h : nested (hexEnc x) k = nested (hexEnc y) l) : hexEnc x = hexEnc y ∧ k = l := by
  unfold nested at h
  have e1 : B "t" = [0x74] := by decide
  have e2 : B "-" = [0x2D] := by decide
  rw [e1, e2] at h
  simp only [List.cons_append, List.nil_append, List.append_assoc, List.cons.injEq, true_and] at h
  exact split_dash (hex_no_dash x) (hex_no_dash y) h

theorem nested_ids {E : Ext} {a b : Tpl} {k l : Bytes} (h : nested (a.id E) k = nested (b.id E) l) : a.id E = b.id E ∧ k = l := nested_inj h

/-! ### Images of the templates a template uses -/

theorem children_eq (E : Ext) (ds : List Tpl) : childrenImages E ds =
    (ds.flatMap fun d => d.images.map fun x => (nested (d.id E) x.1, x.2)).foldl (fun m x => Model.insert x.1 x.2 m) [] := by
  unfold childrenImages
  rw [List.foldl_flatMap]
  congr 1
  funext m d
  rw [List.foldl_map]

theorem children_cases (E : Ext) (ds : List Tpl) (k : Bytes) :
    (∃ d ∈ ds, ∃ x ∈ d.images, nested (d.id E) x.1 = k ∧ lookup k (childrenImages E ds) = some x.2) ∨
    ((∀ d ∈ ds, ∀ x ∈ d.images, nested (d.id E) x.1 ≠ k) ∧ lookup k (childrenImages E ds) = none) := by
  rw [children_eq]
  rcases fold_insert_cases (fun x : Bytes × ImageInfo => x.1) (fun x => x.2) k (ds.flatMap fun d => d.images.map fun x => (nested (d.id E) x.1, x.2)) [] with ⟨y, hy, h1, h2⟩ | ⟨h1, h2⟩
  · obtain ⟨d, hd, hy⟩ := List.mem_flatMap.1 hy
    obtain ⟨x, hx, rfl⟩ := List.mem_map.1 hy
    exact Or.inl ⟨d, hd, x, hx, h1, h2⟩
  · refine Or.inr ⟨fun d hd x hx => ?_, h2⟩
    exact h1 _ (List.mem_flatMap.mpr ⟨d, hd, List.mem_map.mpr ⟨x, hx, rfl⟩⟩)

theorem children_nodup (E : Ext) (ds : List Tpl) : (keys (childrenImages E ds)).Nodup := by
  rw [children_eq]
  exact fold_insert_nodup (fun x : Bytes × ImageInfo => x.1) (fun x => x.2) _ [] (by simp [keys])

theorem merge_cases (m0 c : List (Bytes × ImageInfo)) (hc : (keys c).Nodup) (k : Bytes) :
    (∃ im, lookup k c = some im ∧ lookup k (c.foldl (fun m x => Model.insert x.1 x.2 m) m0) = some im) ∨
    (lookup k c = none ∧ lookup k (c.foldl (fun m x => Model.insert x.1 x.2 m) m0) = lookup k m0) := by
  rcases fold_insert_cases (fun x : Bytes × ImageInfo => x.1) (fun x => x.2) k c m0 with ⟨y, hy, h1, h2⟩ | ⟨h1, h2⟩
  · refine Or.inl ⟨y.2, ?_, h2⟩
    rw [← h1]
    exact (mem_lookup hc).2 hy
  · refine Or.inr ⟨?_, h2⟩
    cases hk : lookup k c with
    | none => rfl
    | some v => exact absurd rfl (h1 _ ((mem_lookup hc).1 hk))

/-! ### The round trip -/

/-- The templates that are encoded. -/
def firstClass (E : Ext) (ds : List Tpl) : List Tpl := ds.filter fun d => decide (d.id E ∉ (childrensTemplates ds).map (Tpl.id E))

theorem encodeAll_eq (E : Ext) (br : List Bytes) : ∀ ds : List Tpl, gobEncodeAll E br ds = (ds.filter fun d => decide (d.id E ∉ br)).map (gobEncode E)
  | [] => by simp [gobEncodeAll]
  | d :: r => by
    unfold gobEncodeAll
    rw [encodeAll_eq E br r]
    by_cases h : d.id E ∈ br <;> simp [h]

theorem decodeAll_eq (E : Ext) : ∀ ws : List Wire, gobDecodeAll E ws = ws.map (gobDecode E)
  | [] => by simp [gobDecodeAll]
  | w :: r => by
    unfold gobDecodeAll
    rw [decodeAll_eq E r, List.map_cons]

/-- Encoding a template and decoding it. -/
def roundTrip (E : Ext) (t : Tpl) : Tpl := gobDecode E (gobEncode E t)

/-- The templates decoding gets from the decoder. -/
def kidsOf (E : Ext) (t : Tpl) : List Tpl := (firstClass E t.deps).map (roundTrip E)

/-- The images decoding gets from the decoder. -/
def ownOf (E : Ext) (t : Tpl) : List (Bytes × ImageInfo) := (t.images.filter fun x => decide (x.1 ∉ keys (childrenImages E t.deps))).map fun x => (x.1, reread E x.2)

theorem roundTrip_eq (E : Ext) (t : Tpl) : roundTrip E t = .mk t.corner t.size t.bytes t.page
    ((childrenImages E (kidsOf E t)).foldl (fun m x => Model.insert x.1 x.2 m) (ownOf E t)) (childrensTemplates (kidsOf E t) ++ kidsOf E t) := by
  obtain ⟨c, s, b, p, im, ds⟩ := t
  show gobDecode E (gobEncode E _) = _
  rw [gobEncode, gobDecode]
  have e : gobDecodeAll E (gobEncodeAll E ((childrensTemplates ds).map (Tpl.id E)) ds) = kidsOf E (.mk c s b p im ds) := by
    rw [decodeAll_eq, encodeAll_eq, List.map_map]
    rfl
  rw [e]
  rfl

theorem roundTrip_id (E : Ext) (t : Tpl) : (roundTrip E t).id E = t.id E := by rw [roundTrip_eq]; rfl

theorem own_nodup {E : Ext} {t : Tpl} (h : (keys t.images).Nodup) : (keys (ownOf E t)).Nodup := by
  unfold ownOf keys
  rw [List.map_map]
  exact List.Nodup.sublist (List.Sublist.map _ List.filter_sublist) h

theorem own_lookup {E : Ext} {t : Tpl} (h : (keys t.images).Nodup) {k : Bytes} {im : ImageInfo} :
    lookup k (ownOf E t) = some im ↔ ∃ im0, lookup k t.images = some im0 ∧ im = reread E im0 ∧ lookup k (childrenImages E t.deps) = none := by
  rw [mem_lookup (own_nodup h)]
  unfold ownOf
  simp only [List.mem_map, List.mem_filter, decide_eq_true_eq, Prod.mk.injEq]
  constructor
  · rintro ⟨⟨a, b⟩, ⟨h1, h2⟩, h3, h4⟩
    subst h3
    refine ⟨b, (mem_lookup h).2 h1, h4.symm, ?_⟩
    cases hc : lookup a (childrenImages E t.deps) with
    | none => rfl
    | some v => exact absurd (lookup_keys hc) h2
  · rintro ⟨im0, h1, h2, h3⟩
    refine ⟨(k, im0), ⟨(mem_lookup h).1 h1, ?_⟩, rfl, h2.symm⟩
    intro q
    obtain ⟨v, hv⟩ := mem_keys.1 q
    rw [h3] at hv
    cases hv

theorem roundTrip_nodup {E : Ext} {t : Tpl} (h : (keys t.images).Nodup) : (keys (roundTrip E t).images).Nodup := by
  rw [roundTrip_eq]
  exact fold_insert_nodup (fun x : Bytes × ImageInfo => x.1) (fun x => x.2) _ _ (own_nodup h)

/-- Some templates that belong together: those of one program, say. -/
structure World (E : Ext) (U : Tpl → Prop) : Prop where
  ids : ∀ a b, U a → U b → a.id E = b.id E → a = b
  deps : ∀ t d, U t → d ∈ t.deps → U d
  closed : ∀ t d e, U t → d ∈ t.deps → e ∈ d.deps → e ∈ t.deps
  names : ∀ t, U t → (keys t.images).Nodup
  owned : ∀ t d k im, U t → U d → lookup (nested (d.id E) k) t.images = some im → lookup k d.images = some im
  shared : ∀ t d k im, U t → d ∈ t.deps → lookup k d.images = some im → ∃ k', lookup k' t.images = some im

theorem dep_size {t d : Tpl} (h : d ∈ t.deps) : SizeOf.sizeOf d < SizeOf.sizeOf t := by
  obtain ⟨c, s, b, p, im, ds⟩ := t
  have := List.sizeOf_lt_of_mem h
  simp only [Tpl.deps] at this
  rw [Tpl.mk.sizeOf_spec]
  omega

/-- Every template that is used is encoded or brought along by one that is. -/
theorem covered {E : Ext} {U : Tpl → Prop} (hw : World E U) {t : Tpl} (ht : U t) : ∀ (n : Nat) (d : Tpl), d ∈ t.deps → SizeOf.sizeOf t - SizeOf.sizeOf d ≤ n →
    ∃ c ∈ firstClass E t.deps, d = c ∨ d ∈ c.deps := by
  intro n
  induction n with
  | zero =>
    intro d hd hn
    have := dep_size hd
    omega
  | succ n ih =>
    intro d hd hn
    by_cases hb : d.id E ∈ (childrensTemplates t.deps).map (Tpl.id E)
    · obtain ⟨e, he, hid⟩ := List.mem_map.1 hb
      obtain ⟨c, hc, hec⟩ := List.mem_flatMap.1 he
      have ue := hw.deps t e ht (hw.closed t c e ht hc hec)
      have e1 : e = d := hw.ids _ _ ue (hw.deps t d ht hd) hid
      subst e1
      have s1 := dep_size hec
      have s2 := dep_size hc
      obtain ⟨c', hc', h⟩ := ih c hc (by omega)
      refine ⟨c', hc', Or.inr ?_⟩
      rcases h with h | h
      · rw [← h]; exact hec
      · exact hw.closed c' c e (hw.deps t c' ht (List.mem_of_mem_filter hc')) h hec
    · exact ⟨d, List.mem_filter.mpr ⟨hd, by simpa using hb⟩, Or.inl rfl⟩

theorem kid_of {E : Ext} {t c : Tpl} (h : c ∈ firstClass E t.deps) : roundTrip E c ∈ kidsOf E t := List.mem_map.mpr ⟨c, h, rfl⟩

theorem trip_deps {E : Ext} {t d : Tpl} : d ∈ (roundTrip E t).deps ↔ ∃ c ∈ firstClass E t.deps, d = roundTrip E c ∨ d ∈ (roundTrip E c).deps := by
  rw [roundTrip_eq]
  show d ∈ childrensTemplates (kidsOf E t) ++ kidsOf E t ↔ _
  unfold childrensTemplates kidsOf
  rw [List.mem_append, List.mem_flatMap]
  constructor
  · rintro (⟨x, hx, h⟩ | h)
    · obtain ⟨c, hc, rfl⟩ := List.mem_map.1 hx
      exact ⟨c, hc, Or.inr h⟩
    · obtain ⟨c, hc, rfl⟩ := List.mem_map.1 h
      exact ⟨c, hc, Or.inl rfl⟩
  · rintro ⟨c, hc, rfl | h⟩
    · exact Or.inr (List.mem_map.mpr ⟨c, hc, rfl⟩)
    · exact Or.inl ⟨_, List.mem_map.mpr ⟨c, hc, rfl⟩, h⟩

/-- The images of the decoded template: those of its own, and those of the templates it gets from the decoder. -/
theorem trip_images {E : Ext} {U : Tpl → Prop} (hw : World E U) {t : Tpl} (ht : U t) {k : Bytes} {im : ImageInfo} : lookup k (roundTrip E t).images = some im ↔
    (∃ c ∈ firstClass E t.deps, ∃ k', k = nested (c.id E) k' ∧ lookup k' (roundTrip E c).images = some im) ∨
    (∃ im0, lookup k t.images = some im0 ∧ im = reread E im0 ∧ lookup k (childrenImages E t.deps) = none) := by
  have hn := hw.names t ht
  have kn : ∀ c ∈ firstClass E t.deps, (keys (roundTrip E c).images).Nodup := fun c hc => roundTrip_nodup (hw.names c (hw.deps t c ht (List.mem_of_mem_filter hc)))
  -- the images of the kids, as a map
  have kids : ∀ {im}, lookup k (childrenImages E (kidsOf E t)) = some im ↔ ∃ c ∈ firstClass E t.deps, ∃ k', k = nested (c.id E) k' ∧ lookup k' (roundTrip E c).images = some im := by
    intro im
    constructor
    · intro h
      rcases children_cases E (kidsOf E t) k with ⟨d, hd, x, hx, h1, h2⟩ | ⟨_, h2⟩
      · rw [h] at h2
        cases h2
        obtain ⟨c, hc, rfl⟩ := List.mem_map.1 hd
        rw [roundTrip_id] at h1
        exact ⟨c, hc, x.1, h1.symm, (mem_lookup (kn c hc)).2 hx⟩
      · rw [h] at h2
        cases h2
    · rintro ⟨c, hc, k', rfl, h⟩
      have hx := (mem_lookup (kn c hc)).1 h
      rcases children_cases E (kidsOf E t) (nested (c.id E) k') with ⟨d, hd, x, hx', h1, h2⟩ | ⟨h1, _⟩
      · obtain ⟨c', hc', rfl⟩ := List.mem_map.1 hd
        rw [roundTrip_id] at h1
        obtain ⟨e1, e2⟩ := nested_ids h1
        have e3 := hw.ids _ _ (hw.deps t c' ht (List.mem_of_mem_filter hc')) (hw.deps t c ht (List.mem_of_mem_filter hc)) e1
        subst e3
        have h3 := (mem_lookup (kn c' hc')).2 (show (x.1, x.2) ∈ _ from hx')
        rw [e2, h] at h3
        cases h3
        exact h2
      · exact absurd (by rw [roundTrip_id]) (h1 _ (kid_of hc) _ hx)
  have apart : ∀ {im}, lookup k (childrenImages E (kidsOf E t)) = some im → lookup k (ownOf E t) = none := by
    intro im h
    obtain ⟨c, hc, k', rfl, _⟩ := kids.1 h
    cases ho : lookup (nested (c.id E) k') (ownOf E t) with
    | none => rfl
    | some v =>
      exfalso
      obtain ⟨im0, h1, _, h3⟩ := (own_lookup hn).1 ho
      have hct := List.mem_of_mem_filter hc
      have h4 := hw.owned t c k' im0 ht (hw.deps t c ht hct) h1
      rcases children_cases E t.deps (nested (c.id E) k') with ⟨_, _, _, _, _, h5⟩ | ⟨h5, _⟩
      · rw [h3] at h5; cases h5
      · exact h5 c hct _ ((mem_lookup (hw.names c (hw.deps t c ht hct))).1 h4) rfl
  rw [roundTrip_eq]
  show lookup k ((childrenImages E (kidsOf E t)).foldl (fun m x => Model.insert x.1 x.2 m) (ownOf E t)) = some im ↔ _
  rw [← kids, ← own_lookup hn]
  rcases merge_cases (ownOf E t) (childrenImages E (kidsOf E t)) (children_nodup E _) k with ⟨im1, h1, h2⟩ | ⟨h1, h2⟩
  · rw [h2, h1, apart h1]
    simp
  · rw [h2, h1]
    simp

end Verif.Proof
