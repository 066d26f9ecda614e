import Verif.Proof.Replace
import Verif.Proof.Alias
import Verif.Proof.Utf16
import Mathlib.Algebra.Ring.Parity
/-
Which aliases keep apart.
-/
namespace Verif.Proof
open Verif Verif.Model Verif.Spec

/-- The bytes at an occurrence. -/
theorem at_get {k s : Bytes} {i : Nat} (h : At k s i) (t : Nat) (ht : t < k.length) : s[i + t]? = k[t]? := by
  obtain ⟨p, q, rfl, rfl⟩ := h
  rw [List.append_assoc, List.getElem?_append_right (by omega), Nat.add_sub_cancel_left, List.getElem?_append_left ht]

theorem mid_get (p w q : Bytes) (t : Nat) (ht : t < w.length) : (p ++ w ++ q)[p.length + t]? = w[t]? :=
  at_get ⟨p, q, rfl, rfl⟩ t ht

/-- What is not there is not there after a replacement that keeps apart. -/
theorem replaced_absent {a k r : Bytes} (ha : a ≠ []) (hk : k ≠ []) (h : Apart a r) (s : Bytes) (hs : ∀ i, ¬ At a s i) : ∀ i, ¬ At a (replaceAll k r s) i := by
  have key : ∀ n s, s.length ≤ n → (∀ i, ¬ At a s i) → ∀ i, ¬ At a (replaceAll k r s) i := by
    intro n
    induction n with
    | zero =>
      intro s hs ho
      have : s = [] := List.length_eq_zero_iff.mp (Nat.le_zero.mp hs)
      subst this
      rw [replaceAll_nil]
      exact ho
    | succ n ih =>
      intro s hs ho
      rcases first_at k s with h1 | ⟨pre, rest, rfl, h1⟩
      · rw [replaceAll_none hk h1]; exact ho
      · rw [replaceAll_next hk h1]
        have hl := List.length_pos_iff.mpr hk
        have ih' := ih rest (by simp at hs; omega) (fun i hi => ho _ (hi.left (pre ++ k)))
        intro i hi
        rcases h pre _ i hi with h2 | h2
        · rw [List.append_assoc] at hi
          have h3 := hi.in_left h2
          exact ho i (by rw [List.append_assoc]; exact h3.right _)
        · have := Spec.At.in_right (w := pre ++ r) hi (by simpa using h2)
          exact ih' _ this
  exact key s.length s (Nat.le_refl _) hs

/-- A word `w` whose last byte is not in `k`, and that has not the last byte of `k`. -/
theorem apart_last {k w : Bytes} {y c : UInt8} (hk : k[k.length - 1]? = some y) (hy : y ∉ w) (hw : w[w.length - 1]? = some c) (hc : c ∉ k) : Apart k w := by
  intro p q i hi
  by_contra hn
  rw [not_or] at hn
  obtain ⟨n1, n2⟩ := hn
  have lk : 0 < k.length := by
    by_contra h
    have : k = [] := List.length_eq_zero_iff.mp (by omega)
    subst this
    simp at hk
  have lw : 0 < w.length := by
    by_contra h
    have : w = [] := List.length_eq_zero_iff.mp (by omega)
    subst this
    simp at hw
  by_cases h : i + k.length ≤ p.length + w.length
  · -- the last byte of `k` is in `w`
    have e1 := at_get hi (k.length - 1) (by omega)
    have e2 := mid_get p w q (i + k.length - 1 - p.length) (by omega)
    rw [show p.length + (i + k.length - 1 - p.length) = i + (k.length - 1) by omega, e1, hk] at e2
    exact hy (List.mem_of_getElem? e2.symm)
  · have e1 := mid_get p w q (w.length - 1) (by omega)
    have e2 := at_get hi (p.length + w.length - 1 - i) (by omega)
    rw [show i + (p.length + w.length - 1 - i) = p.length + (w.length - 1) by omega, e1, hw] at e2
    exact hc (List.mem_of_getElem? e2.symm)

/-- `x` is in `k` once, at place `a`; `y` is in `k` once, at the end. -/
structure Marked (a : Nat) (x y : UInt8) (k : Bytes) : Prop where
  fst : k[a]? = some x
  fst' : ∀ t : Nat, k[t]? = some x → t = a
  lst : k[k.length - 1]? = some y
  lst' : ∀ t : Nat, k[t]? = some y → t = k.length - 1

theorem Marked.alen {a : Nat} {x y : UInt8} {k : Bytes} (h : Marked a x y k) : a < k.length := by
  by_contra h1
  have := h.fst
  rw [List.getElem?_eq_none (by omega)] at this
  cases this

/-- Different names in the same brackets. -/
theorem apart_marked {a : Nat} {x y : UInt8} {k w : Bytes} (h1 : Marked a x y k) (h2 : Marked a x y w) (hne : k ≠ w) : Apart k w := by
  intro p q i hi
  by_contra hn
  rw [not_or] at hn
  obtain ⟨n1, n2⟩ := hn
  have lk := h1.alen
  have lw := h2.alen
  -- the ends are the same
  have e : i + k.length = p.length + w.length := by
    by_cases h : i + k.length ≤ p.length + w.length
    · have e1 := at_get hi (k.length - 1) (by omega)
      have e2 := mid_get p w q (i + k.length - 1 - p.length) (by omega)
      rw [show p.length + (i + k.length - 1 - p.length) = i + (k.length - 1) by omega, e1, h1.lst] at e2
      have := h2.lst' _ e2.symm
      omega
    · have e1 := mid_get p w q (w.length - 1) (by omega)
      have e2 := at_get hi (p.length + w.length - 1 - i) (by omega)
      rw [show i + (p.length + w.length - 1 - i) = p.length + (w.length - 1) by omega, e1, h2.lst] at e2
      have := h1.lst' _ e2.symm
      omega
  -- the beginnings are the same
  have e' : i = p.length := by
    by_cases h : i ≤ p.length
    · have e1 := mid_get p w q a lw
      have e2 := at_get hi (p.length + a - i) (by omega)
      rw [show i + (p.length + a - i) = p.length + a by omega, e1, h2.fst] at e2
      have := h1.fst' _ e2.symm
      omega
    · have e1 := at_get hi a lk
      have e2 := mid_get p w q (i + a - p.length) (by omega)
      rw [show p.length + (i + a - p.length) = i + a by omega, e1, h1.fst] at e2
      have := h2.fst' _ e2.symm
      omega
  apply hne
  apply List.ext_getElem?
  intro t
  by_cases ht : t < k.length
  · rw [← at_get hi t ht, e', mid_get p w q t (by omega)]
  · rw [List.getElem?_eq_none (by omega), List.getElem?_eq_none (by omega)]

/-- A replacement: it has no bracket, one of its bytes is not in `k`, and it does not end in what comes before the first bracket. -/
theorem apart_harmless {a : Nat} {x y c : UInt8} {k w : Bytes} (h1 : Marked a x y k) (hx : x ∉ w) (hy : y ∉ w) (hc : c ∈ w) (hck : c ∉ k)
    (hend : ∀ t : Nat, t < a → ∀ s, ¬ ((k.take (t + 1)) <:+ s ++ w ∧ t + 1 ≤ w.length)) : Apart k w := by
  intro p q i hi
  by_contra hn
  rw [not_or] at hn
  obtain ⟨n1, n2⟩ := hn
  have lk := h1.alen
  by_cases h : i + k.length ≤ p.length + w.length
  · have e1 := at_get hi (k.length - 1) (by omega)
    have e2 := mid_get p w q (i + k.length - 1 - p.length) (by omega)
    rw [show p.length + (i + k.length - 1 - p.length) = i + (k.length - 1) by omega, e1, h1.lst] at e2
    exact hy (List.mem_of_getElem? e2.symm)
  by_cases h' : i ≤ p.length
  · -- `k` covers `w`
    obtain ⟨t, ht⟩ := List.getElem?_of_mem hc
    have hlt : t < w.length := by
      by_contra h3
      rw [List.getElem?_eq_none (by omega)] at ht
      cases ht
    have e1 := mid_get p w q t hlt
    have e2 := at_get hi (p.length + t - i) (by omega)
    rw [show i + (p.length + t - i) = p.length + t by omega, e1, ht] at e2
    exact hck (List.mem_of_getElem? e2.symm)
  · by_cases h3 : i + a < p.length + w.length
    · have e1 := at_get hi a lk
      have e2 := mid_get p w q (i + a - p.length) (by omega)
      rw [show p.length + (i + a - p.length) = i + a by omega, e1, h1.fst] at e2
      exact hx (List.mem_of_getElem? e2.symm)
    · -- a beginning of `k` is an end of `w`
      refine hend (p.length + w.length - i - 1) (by omega) [] ⟨?_, by omega⟩
      refine ⟨w.take (i - p.length), ?_⟩
      rw [List.nil_append]
      apply List.ext_getElem?
      intro t
      by_cases ht : t < i - p.length
      · rw [List.getElem?_append_left (by simp; omega), List.getElem?_take_of_lt ht]
      · rw [List.getElem?_append_right (by simp; omega)]
        have el : (w.take (i - p.length)).length = i - p.length := by simp; omega
        rw [el]
        by_cases ht2 : t < w.length
        · rw [List.getElem?_take_of_lt (by omega), ← at_get hi _ (by omega), ← mid_get p w q t ht2]
          congr 1
          omega
        · rw [List.getElem?_eq_none (by simp; omega), List.getElem?_eq_none (by omega)]

/-! ### UTF-16 -/

theorem wide_length (s : Bytes) : (wide s).length = 2 * s.length := by
  induction s with
  | nil => rfl
  | cons c s ih => show (0 :: c :: wide s).length = _; simp only [List.length_cons, ih]; omega

theorem wide_odd (s : Bytes) : ∀ t : Nat, (wide s)[2 * t + 1]? = s[t]? := by
  induction s with
  | nil => intro t; rfl
  | cons c s ih =>
    intro t
    show (0 :: c :: wide s)[2 * t + 1]? = _
    cases t with
    | zero => rfl
    | succ t => rw [show 2 * (t + 1) + 1 = 2 * t + 1 + 1 + 1 by omega, List.getElem?_cons_succ, List.getElem?_cons_succ, ih t, List.getElem?_cons_succ]

theorem wide_even (s : Bytes) : ∀ (t : Nat) (c : UInt8), (wide s)[2 * t]? = some c → c = 0 := by
  induction s with
  | nil => intro t c h; simp [wide] at h
  | cons d s ih =>
    intro t c
    show (0 :: d :: wide s)[2 * t]? = _ → _
    cases t with
    | zero => intro h; exact (Option.some.inj h).symm
    | succ t =>
      rw [show 2 * (t + 1) = 2 * t + 1 + 1 by omega, List.getElem?_cons_succ, List.getElem?_cons_succ]
      exact ih t c

theorem mem_wide {s : Bytes} {c : UInt8} (h : c ∈ wide s) : c = 0 ∨ c ∈ s := by
  unfold wide at h
  obtain ⟨d, h1, h2⟩ := List.mem_flatMap.mp h
  simp only [List.mem_cons, List.not_mem_nil, or_false] at h2
  rcases h2 with rfl | rfl
  · exact .inl rfl
  · exact .inr h1

theorem wide_last {s : Bytes} {c : UInt8} (h : s[s.length - 1]? = some c) : (wide s)[(wide s).length - 1]? = some c := by
  have : 0 < s.length := by
    by_contra h1
    have : s = [] := List.length_eq_zero_iff.mp (by omega)
    subst this
    simp at h
  rw [wide_length, show 2 * s.length - 1 = 2 * (s.length - 1) + 1 by omega, wide_odd, h]

theorem wide_ne {s : Bytes} (h : s ≠ []) : wide s ≠ [] := by
  intro e
  have h1 := wide_length s
  rw [e, List.length_nil] at h1
  have := List.length_pos_iff.mpr h
  omega

theorem wide_inj {s t : Bytes} (h : wide s = wide t) : s = t := by
  apply List.ext_getElem?
  intro i
  rw [← wide_odd, h, wide_odd]

theorem Marked.wide {x y : UInt8} {k : Bytes} (h : Marked 0 x y k) (hx : x ≠ 0) (hy : y ≠ 0) : Marked 1 x y (wide k) where
  fst := (wide_odd k 0).trans h.fst
  fst' := fun t ht => by
    rcases Nat.even_or_odd' t with ⟨m, rfl | rfl⟩
    · exact absurd (wide_even k m x ht) hx
    · rw [wide_odd] at ht
      have := h.fst' m ht
      omega
  lst := wide_last h.lst
  lst' := fun t ht => by
    have hl := h.alen
    rcases Nat.even_or_odd' t with ⟨m, rfl | rfl⟩
    · exact absurd (wide_even k m y ht) hy
    · rw [wide_odd] at ht
      have := h.lst' m ht
      rw [wide_length]
      omega

theorem bracketed_marked {x y : UInt8} {k : Bytes} (hxy : x ≠ y) (h : Bracketed x y k) : Marked 0 x y k := by
  obtain ⟨body, rfl, hx, hy, _⟩ := h
  refine ⟨rfl, fun t ht => ?_, ?_, fun t ht => ?_⟩
  · cases t with
    | zero => rfl
    | succ t =>
      exfalso
      rw [List.cons_append, List.getElem?_cons_succ] at ht
      have := List.mem_of_getElem? ht
      simp at this
      rcases this with h | h
      · exact hx h
      · exact hxy h
  · simp
  · cases t with
    | zero =>
      exfalso
      rw [List.cons_append, List.getElem?_cons_zero] at ht
      exact hxy (Option.some.inj ht)
    | succ t =>
      rw [List.cons_append, List.getElem?_cons_succ] at ht
      by_cases h : t < body.length
      · rw [List.getElem?_append_left h] at ht
        exact absurd (List.mem_of_getElem? ht) hy
      · have h2 := (List.getElem?_eq_some_iff.mp ht).1
        simp at h2 ⊢
        omega

theorem apart_raw {x y : UInt8} {k r : Bytes} {ks : List Bytes} (hxy : x ≠ y) (hk : Bracketed x y k) (hm : k ∈ ks) (hr : Harmless x y ks r) : Apart k r := by
  obtain ⟨h1, h2, ⟨c, h3, h4⟩, _⟩ := hr
  exact apart_harmless (bracketed_marked hxy hk) h1 h2 h3 (h4 k hm) (fun t ht => by omega)

theorem bracketed_ne {x y : UInt8} {k : Bytes} (hk : Bracketed x y k) : k ≠ [] ∧ x ≠ 0 ∧ y ≠ 0 ∧ ∀ c ∈ k, c < 128 := by
  obtain ⟨body, rfl, _, _, h⟩ := hk
  exact ⟨by simp, (h x (by simp)).1, (h y (by simp)).1, fun c hc => (h c hc).2⟩

theorem apart_wide {x y : UInt8} {k r : Bytes} {ks : List Bytes} (hxy : x ≠ y) (hk : Bracketed x y k) (hm : k ∈ ks) (hr : Harmless x y ks r) : Apart (wide k) (wide r) := by
  obtain ⟨h1, h2, ⟨c, h3, h4⟩, h5⟩ := hr
  obtain ⟨k1, k2, k3, _⟩ := bracketed_ne hk
  have hw : ∀ d ∈ r, d ∈ wide r := fun d hd => by
    unfold wide
    exact List.mem_flatMap.mpr ⟨d, hd, by simp⟩
  refine apart_harmless ((bracketed_marked hxy hk).wide k2 k3) (fun h => ?_) (fun h => ?_) (hw c h3) (fun h => ?_) (fun t ht s h => ?_)
  · rcases mem_wide h with h | h
    · exact k2 h
    · exact h1 h
  · rcases mem_wide h with h | h
    · exact k3 h
    · exact h2 h
  · rcases mem_wide h with h | h
    · exact (h5 c h3).1 h
    · exact h4 k hm h
  · obtain ⟨h6, h7⟩ := h
    have ht0 : t = 0 := by omega
    subst ht0
    have e : (wide k).take (0 + 1) = [0] := by
      obtain ⟨d, k', rfl⟩ := List.exists_cons_of_ne_nil k1
      rfl
    rw [e] at h6
    obtain ⟨u, hu⟩ := h6
    have hrl : 0 < r.length := List.length_pos_of_mem h3
    obtain ⟨c', hc'⟩ : ∃ c', r[r.length - 1]? = some c' := ⟨_, List.getElem?_eq_getElem (by omega)⟩
    have hl := wide_last hc'
    have l1 : (u ++ [0])[(u ++ [(0 : UInt8)]).length - 1]? = some 0 := by simp
    rw [hu] at l1
    have hl1 := wide_length r
    rw [List.getElem?_append_right (by simp; omega)] at l1
    rw [show (s ++ wide r).length - 1 - s.length = (wide r).length - 1 by simp; omega, hl] at l1
    have := Option.some.inj l1
    exact (h5 c' (List.mem_of_getElem? hc')).1 this

theorem u16_wide {s : Bytes} (h : ∀ c ∈ s, c < 128) : u16 s false = wide s := by
  have key : utf8toutf16Loop s = some (wide s) := by
    induction s with
    | nil => rfl
    | cons c s ih =>
      have h1 : c < 128 := h c (by simp)
      have h2 : ¬ 224 ≤ c := by intro h; have := UInt8.le_iff_toNat_le.mp h; have := UInt8.lt_iff_toNat_lt.mp h1; simp at *; omega
      have h3 : ¬ 192 ≤ c := by intro h; have := UInt8.le_iff_toNat_le.mp h; have := UInt8.lt_iff_toNat_lt.mp h1; simp at *; omega
      rw [utf8toutf16Loop.eq_def]
      dsimp only
      rw [if_neg h2, if_neg h3, ih (fun d hd => h d (by simp [hd]))]
      rfl
  unfold u16 utf8toutf16
  rw [key]
  rfl

theorem u16_utf16 {cps : List Nat} (h : ∀ c ∈ cps, c < 0x10000) : u16 (utf8Enc cps) false = utf16Enc cps := by
  unfold u16 utf8toutf16
  rw [utf16_loop cps h]
  rfl

/-! ### Any order -/

/-- The names and their replacements as a map. -/
structure AsMap (as : List (Bytes × Bytes)) (am : List (Bytes × Bytes)) : Prop where
  perm : (keys am).Perm (as.map (·.1))
  get : ∀ x ∈ as, lookup x.1 am = some x.2

theorem fold_order {as am : List (Bytes × Bytes)} (h : AsMap as am) (hnd : (as.map (·.1)).Nodup) (mode : Bool) (enc : Bytes → Bytes)
    (henc : ∀ x ∈ as, (mode = true → u16 x.1 false = enc x.1 ∧ u16 x.2 false = enc x.2) ∧ (mode = false → enc x.1 = x.1 ∧ enc x.2 = x.2)) (hne : ∀ x ∈ as, enc x.1 ≠ [])
    (h1 : ∀ x ∈ as, ∀ y ∈ as, x.1 ≠ y.1 → Apart (enc x.1) (enc y.1)) (h2 : ∀ x ∈ as, ∀ y ∈ as, Apart (enc x.1) (enc y.2)) (l : List Bytes) (hl : l.Perm (keys am)) (b : Bytes) :
    ReplacedAll (as.map fun x => (enc x.1, enc x.2)) b (l.foldl (substOne mode am) b) := by
  have one : ∀ x ∈ as, ∀ z, substOne mode am z x.1 = replaceAll (enc x.1) (enc x.2) z := by
    intro x hx z
    unfold substOne
    rw [h.get x hx]
    obtain ⟨e1, e2⟩ := henc x hx
    cases mode with
    | true => obtain ⟨a1, a2⟩ := e1 rfl; simp only [if_true, a1, a2]
    | false => obtain ⟨a1, a2⟩ := e2 rfl; simp only [a1, a2]; rfl
  have hp : l.Perm (as.map (·.1)) := hl.trans h.perm
  rw [hp.foldl_eq' (f := substOne mode am) (fun a ha c hc z => by
    obtain ⟨x, hx, rfl⟩ := List.mem_map.mp (hp.mem_iff.mp ha)
    obtain ⟨y, hy, rfl⟩ := List.mem_map.mp (hp.mem_iff.mp hc)
    by_cases e : x.1 = y.1
    · rw [e]
    · rw [one x hx, one y hy, one y hy, one x hx]
      exact replace_comm (hne y hy) (hne x hx) (h1 y hy x hx (fun e' => e e'.symm)) (h1 x hx y hy e) (h2 x hx y hy) (h2 y hy x hx) z)]
  clear hp hl hnd h1 h2 h
  induction as generalizing b with
  | nil => exact .nil b
  | cons x as ih =>
    rw [List.map_cons, List.map_cons, List.foldl_cons]
    refine .cons _ _ _ _ _ _ (replaceAll_spec (hne x (by simp)) (enc x.2) b.length b (Nat.le_refl _)) ?_
    rw [one x (by simp)]
    exact ih (fun y hy => henc y (by simp [hy])) (fun y hy => hne y (by simp [hy])) _ (fun y hy => one y (by simp [hy]))

end Verif.Proof
