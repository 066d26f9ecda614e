import Verif.Model.Bookmarks
import Verif.Spec.Outline
import Mathlib.Tactic.ByContra
/-
The linking loop of `putbookmarks` builds the outline.
-/
namespace Verif.Proof
open Verif.Model Verif.Spec

theorem modLink_length (i : Nat) (g : OutLinks → OutLinks) (l : List OutLinks) : (modLink i g l).length = l.length := by
  induction l generalizing i with
  | nil => cases i <;> rfl
  | cons a r ih => cases i <;> simp [modLink, ih]

theorem modLink_getD (i : Nat) (g : OutLinks → OutLinks) (l : List OutLinks) (hi : i < l.length) (j : Nat) :
    (modLink i g l).getD j {} = if j = i then g (l.getD i {}) else l.getD j {} := by
  induction l generalizing i j with
  | nil => simp at hi
  | cons a r ih =>
    cases i with
    | zero => cases j <;> simp [modLink]
    | succ i =>
      cases j with
      | zero => simp [modLink]
      | succ j =>
        have := ih i (by simpa using hi) j
        simp only [List.getD_cons_succ, modLink, Nat.add_right_cancel_iff] at this ⊢
        exact this

/-- The invariant after `k` bookmarks. -/
structure OutInv (n : Nat) (lv : Nat → Int) (k : Nat) (s : OutSt) : Prop where
  len : s.links.length = n
  lru : ∀ i, i < k → (∀ j, i < j → j < k → lv j ≠ lv i) → lruGet (lv i) s.lru = i
  level : s.level = if k = 0 then 0 else lv (k - 1)
  parent : ∀ p c, Under k lv p c → (s.links.getD c {}).parent = p
  top : ∀ c, Top k lv c → (s.links.getD c {}).parent = n
  next : ∀ a b, (s.links.getD a {}).next = some b ↔ After k lv a b
  prev : ∀ a b, (s.links.getD b {}).prev = some a ↔ After k lv a b
  first : ∀ p c, (s.links.getD p {}).first = some c ↔ Under k lv p c ∧ ∀ c', Under k lv p c' → c ≤ c'
  last : ∀ p c, (s.links.getD p {}).last = some c ↔ Under k lv p c ∧ ∀ c', Under k lv p c' → c' ≤ c

/-- The last bookmark at a level not above the one just reached: all later ones are deeper. -/
theorem last_at {n : Nat} {lv : Nat → Int} (h : LevelsOk n lv) (k : Nat) (hk : k ≤ n) (hk0 : 0 < k) (l : Int) (hl0 : 0 ≤ l) (hl : l ≤ lv (k - 1)) :
    ∃ i, i < k ∧ lv i = l ∧ ∀ j, i < j → j < k → l < lv j := by
  induction k with
  | zero => omega
  | succ k ih =>
    by_cases he : lv k = l
    · exact ⟨k, by omega, he, by intro j h1 h2; omega⟩
    · have hgt : l < lv k := by simp at hl; omega
      have hk1 : 0 < k := by
        rcases Nat.eq_zero_or_pos k with h0 | h0
        · subst h0; rw [h.zero] at hgt; omega
        · exact h0
      have hst := h.step (k - 1) (by omega)
      rw [show k - 1 + 1 = k by omega] at hst
      obtain ⟨i, h1, h2, h3⟩ := ih (by omega) hk1 (by omega)
      refine ⟨i, by omega, h2, ?_⟩
      intro j h4 h5
      by_cases hj : j = k
      · subst hj; exact hgt
      · exact h3 j h4 (by omega)

theorem outStep_inv {n : Nat} {lv : Nat → Int} (h : LevelsOk n lv) (k : Nat) (hk : k < n) (s : OutSt) (hs : OutInv n lv k s) :
    OutInv n lv (k + 1) (outStep n s k (lv k)) := by
  have hlru : ∀ i, i < k + 1 → (∀ j, i < j → j < k + 1 → lv j ≠ lv i) → lruGet (lv i) ((lv k, k) :: s.lru) = i := by
    intro i h1 h2
    unfold lruGet
    by_cases hik : i = k
    · subst hik; simp
    · rw [if_neg (h2 k (by omega) (by omega))]
      exact hs.lru i (by omega) fun j h3 h4 => h2 j h3 (by omega)
  have hUnder : ∀ p c, Under (k + 1) lv p c ↔ Under k lv p c ∨ (c = k ∧ Under (k + 1) lv p k) := by
    intro p c
    constructor
    · intro hu
      by_cases hck : c = k
      · subst hck; exact Or.inr ⟨rfl, hu⟩
      · exact Or.inl ⟨hu.1, by have := hu.2.1; omega, hu.2.2⟩
    · rintro (hu | ⟨rfl, hu⟩)
      · exact ⟨hu.1, by have := hu.2.1; omega, hu.2.2⟩
      · exact hu
  have hAfter : ∀ p c, After (k + 1) lv p c ↔ After k lv p c ∨ (c = k ∧ After (k + 1) lv p k) := by
    intro p c
    constructor
    · intro hu
      by_cases hck : c = k
      · subst hck; exact Or.inr ⟨rfl, hu⟩
      · exact Or.inl ⟨hu.1, by have := hu.2.1; omega, hu.2.2⟩
    · rintro (hu | ⟨rfl, hu⟩)
      · exact ⟨hu.1, by have := hu.2.1; omega, hu.2.2⟩
      · exact hu
  -- the parent
  have hpar : 0 < lv k → ∃ p, p < k ∧ lruGet (lv k - 1) s.lru = p ∧ (∀ q, Under (k + 1) lv q k ↔ q = p) ∧ (lv k > s.level ↔ ∀ c, ¬ Under k lv p c) := by
    intro hpos
    have hk0 : 0 < k := by
      rcases Nat.eq_zero_or_pos k with h0 | h0
      · subst h0; rw [h.zero] at hpos; omega
      · exact h0
    have hst := h.step (k - 1) (by omega)
    rw [show k - 1 + 1 = k by omega] at hst
    obtain ⟨p, h1, h2, h3⟩ := last_at h k (by omega) hk0 (lv k - 1) (by omega) (by omega)
    refine ⟨p, h1, ?_, ?_, ?_⟩
    · rw [← h2]; exact hs.lru p h1 fun j h4 h5 => by have := h3 j h4 h5; omega
    · intro q
      constructor
      · rintro ⟨q1, q2, q3, q4⟩
        rcases Nat.lt_trichotomy q p with hq | hq | hq
        · have := q4 p hq h1; omega
        · exact hq
        · have := h3 q hq q1; omega
      · rintro rfl
        exact ⟨h1, by omega, by omega, fun j h4 h5 => by have := h3 j h4 h5; omega⟩
    · rw [hs.level, if_neg (by omega)]
      constructor
      · intro hgt c hc
        have hpk : p = k - 1 := by
          by_contra hne
          have := h3 (k - 1) (by omega) (by omega)
          omega
        have := hc.1
        have := hc.2.1
        omega
      · intro hno
        by_contra hle
        obtain ⟨i, i1, i2, i3⟩ := last_at h k (by omega) hk0 (lv k) (by omega) (by omega)
        have hpi : p < i := by
          rcases Nat.lt_trichotomy p i with hq | hq | hq
          · exact hq
          · subst hq; omega
          · have := i3 p hq h1; omega
        exact hno i ⟨hpi, i1, by omega, fun j h4 h5 => by have := h3 j h4 (by omega); omega⟩
  -- the previous sibling
  have hprev : (lv k ≤ s.level ∧ k > 0) → ∃ p, p < k ∧ lruGet (lv k) s.lru = p ∧ (∀ q, After (k + 1) lv q k ↔ q = p) := by
    rintro ⟨hle, hk0⟩
    rw [hs.level, if_neg (by omega)] at hle
    obtain ⟨p, h1, h2, h3⟩ := last_at h k (by omega) hk0 (lv k) (h.pos k hk) hle
    refine ⟨p, h1, ?_, ?_⟩
    · rw [← h2]; exact hs.lru p h1 fun j h4 h5 => by have := h3 j h4 h5; omega
    · intro q
      constructor
      · rintro ⟨q1, q2, q3, q4⟩
        rcases Nat.lt_trichotomy q p with hq | hq | hq
        · have := q4 p hq h1; omega
        · exact hq
        · have := h3 q hq q1; omega
      · rintro rfl
        exact ⟨h1, by omega, by omega, fun j h4 h5 => by have := h3 j h4 h5; omega⟩
  have hnoprev : ¬ (lv k ≤ s.level ∧ k > 0) → ∀ q, ¬ After (k + 1) lv q k := by
    rintro hne q ⟨q1, q2, q3, q4⟩
    refine hne ⟨?_, by omega⟩
    rw [hs.level, if_neg (by omega)]
    by_cases hq : q = k - 1
    · subst hq; omega
    · have := q4 (k - 1) (by omega) (by omega); omega
  have hnopar : ¬ 0 < lv k → ∀ q, ¬ Under (k + 1) lv q k := by
    rintro hne q ⟨q1, q2, q3, q4⟩
    have := h.pos q (by omega)
    omega
  -- what is new of bookmark k
  have hfk : ∀ c, ¬ Under k lv k c := fun c hc => by have := hc.1; have := hc.2.1; omega
  have hfk' : ∀ c, ¬ Under (k + 1) lv k c := fun c hc => by have := hc.1; have := hc.2.1; omega
  have hak : ∀ c, ¬ After k lv k c := fun c hc => by have := hc.1; have := hc.2.1; omega
  have hka : ∀ c, ¬ After k lv c k := fun c hc => by have := hc.1; have := hc.2.1; omega
  have hku : ∀ c, ¬ Under k lv c k := fun c hc => by have := hc.1; have := hc.2.1; omega
  -- the links after the first half
  obtain ⟨L1, hL1, l1, lp, ln, lpr, lf, ll⟩ : ∃ L1 : List OutLinks, (if lv k > 0 then
      let parent := lruGet (lv k - 1) s.lru
      let ls := modLink k (fun o => { o with parent := parent }) s.links
      let ls := modLink parent (fun o => { o with last := some k }) ls
      if lv k > s.level then modLink parent (fun o => { o with first := some k }) ls else ls
    else modLink k (fun o => { o with parent := n }) s.links) = L1 ∧ L1.length = n ∧
      (∀ c, (L1.getD c {}).parent = if c = k then (if 0 < lv k then lruGet (lv k - 1) s.lru else n) else (s.links.getD c {}).parent) ∧
      (∀ c, (L1.getD c {}).next = (s.links.getD c {}).next) ∧ (∀ c, (L1.getD c {}).prev = (s.links.getD c {}).prev) ∧
      (∀ p, (L1.getD p {}).first = if 0 < lv k ∧ p = lruGet (lv k - 1) s.lru ∧ lv k > s.level then some k else (s.links.getD p {}).first) ∧
      (∀ p, (L1.getD p {}).last = if 0 < lv k ∧ p = lruGet (lv k - 1) s.lru then some k else (s.links.getD p {}).last) := by
    refine ⟨_, rfl, ?_⟩
    by_cases hpos : 0 < lv k
    · obtain ⟨p, p1, p2, -, -⟩ := hpar hpos
      have hpk : p ≠ k := by omega
      have hkp : k ≠ p := by omega
      simp only [hpos, if_true, gt_iff_lt, p2, true_and]
      have e1 : k < s.links.length := by rw [hs.len]; exact hk
      have e2 : p < (modLink k (fun o => { o with parent := p }) s.links).length := by rw [modLink_length, hs.len]; omega
      have e3 : p < (modLink p (fun o => { o with last := some k }) (modLink k (fun o => { o with parent := p }) s.links)).length := by
        rw [modLink_length, modLink_length, hs.len]; omega
      by_cases hgt : s.level < lv k
      · simp only [hgt, if_true, and_true]
        refine ⟨by simp [modLink_length, hs.len], ?_, ?_, ?_, ?_, ?_⟩ <;> intro c <;>
          simp only [modLink_getD _ _ _ e3, modLink_getD _ _ _ e2, modLink_getD _ _ _ e1] <;>
          (by_cases hc : c = p
           · rw [hc]; simp [hpk, hkp]
           · by_cases hck : c = k
             · rw [hck]; simp [hpk, hkp]
             · simp [hc, hck])
      · simp only [hgt, if_false, and_false]
        refine ⟨by simp [modLink_length, hs.len], ?_, ?_, ?_, ?_, ?_⟩ <;> intro c <;>
          simp only [modLink_getD _ _ _ e2, modLink_getD _ _ _ e1] <;>
          (by_cases hc : c = p
           · rw [hc]; simp [hpk, hkp]
           · by_cases hck : c = k
             · rw [hck]; simp [hpk, hkp]
             · simp [hc, hck])
    · simp only [hpos, if_false, gt_iff_lt, false_and]
      have e1 : k < s.links.length := by rw [hs.len]; exact hk
      refine ⟨by simp [modLink_length, hs.len], ?_, ?_, ?_, ?_, ?_⟩ <;> intro c <;>
          simp only [modLink_getD _ _ _ e1] <;> by_cases hck : c = k <;> simp [hck]
  obtain ⟨L2, hL2, m1, mp, mn, mpr, mf, ml⟩ : ∃ L2 : List OutLinks, (if lv k ≤ s.level ∧ k > 0 then
      let prev := lruGet (lv k) s.lru
      let ls := modLink prev (fun o => { o with next := some k }) L1
      modLink k (fun o => { o with prev := some prev }) ls
    else L1) = L2 ∧ L2.length = n ∧ (∀ c, (L2.getD c {}).parent = (L1.getD c {}).parent) ∧
      (∀ c, (L2.getD c {}).next = if (lv k ≤ s.level ∧ k > 0) ∧ c = lruGet (lv k) s.lru then some k else (L1.getD c {}).next) ∧
      (∀ c, (L2.getD c {}).prev = if (lv k ≤ s.level ∧ k > 0) ∧ c = k then some (lruGet (lv k) s.lru) else (L1.getD c {}).prev) ∧
      (∀ p, (L2.getD p {}).first = (L1.getD p {}).first) ∧ (∀ p, (L2.getD p {}).last = (L1.getD p {}).last) := by
    refine ⟨_, rfl, ?_⟩
    by_cases hc : lv k ≤ s.level ∧ k > 0
    · obtain ⟨p, p1, p2, -⟩ := hprev hc
      have hpk : p ≠ k := by omega
      have hkp : k ≠ p := by omega
      rw [if_pos hc]
      simp only [p2, eq_true hc, true_and]
      have e1 : p < L1.length := by rw [l1]; omega
      have e2 : k < (modLink p (fun o => { o with next := some k }) L1).length := by rw [modLink_length, l1]; exact hk
      refine ⟨by simp [modLink_length, l1], ?_, ?_, ?_, ?_, ?_⟩ <;> intro c <;>
          simp only [modLink_getD _ _ _ e2, modLink_getD _ _ _ e1] <;>
          (by_cases hc : c = p
           · rw [hc]; simp [hpk, hkp]
           · by_cases hck : c = k
             · rw [hck]; simp [hpk, hkp]
             · simp [hc, hck])
    · rw [if_neg hc]
      simp only [eq_false hc, false_and, if_false]
      exact ⟨l1, fun _ => trivial, fun _ => trivial, fun _ => trivial, fun _ => trivial, fun _ => trivial⟩
  have hout : outStep n s k (lv k) = { links := L2, lru := (lv k, k) :: s.lru, level := lv k } := by
    unfold outStep
    dsimp only at hL1 hL2 ⊢
    rw [hL1, hL2]
  rw [hout]
  refine ⟨m1, hlru, by simp, ?_, ?_, ?_, ?_, ?_, ?_⟩
  · intro p c hu
    show (L2.getD c {}).parent = p
    rw [mp, lp]
    rcases (hUnder p c).mp hu with hu | ⟨rfl, hu⟩
    · rw [if_neg (by have := hu.2.1; omega)]; exact hs.parent p c hu
    · rw [if_pos rfl]
      by_cases hpos : 0 < lv c
      · obtain ⟨q, q1, q2, q3, -⟩ := hpar hpos
        rw [if_pos hpos, q2, (q3 p).mp hu]
      · exact absurd hu (hnopar hpos p)
  · intro c ht
    show (L2.getD c {}).parent = n
    rw [mp, lp]
    by_cases hck : c = k
    · rw [if_pos hck]
      subst hck
      by_cases hpos : 0 < lv c
      · obtain ⟨q, q1, q2, q3, -⟩ := hpar hpos
        have := ((q3 q).mpr rfl).2.2.1
        have := ht.2 q q1
        omega
      · rw [if_neg hpos]
    · rw [if_neg hck]
      exact hs.top c ⟨by have := ht.1; omega, ht.2⟩
  · intro a b
    show (L2.getD a {}).next = some b ↔ _
    rw [mn, ln, hAfter]
    by_cases hc : lv k ≤ s.level ∧ k > 0
    · obtain ⟨p, p1, p2, p3⟩ := hprev hc
      simp only [eq_true hc, true_and, p2, p3]
      by_cases hap : a = p
      · subst hap
        simp only [if_true]
        constructor
        · intro he; cases he; exact Or.inr ⟨rfl, trivial⟩
        · rintro (hu | ⟨rfl, -⟩)
          · exfalso
            have h4 := (p3 a).mpr rfl
            have := h4.2.2.2 b hu.1 (by have := hu.2.1; omega)
            have := hu.2.2.1
            omega
          · rfl
      · simp only [hap, if_false, and_false, or_false]; exact hs.next a b
    · simp only [eq_false hc, false_and, if_false, hs.next a b]
      constructor
      · exact Or.inl
      · rintro (hu | ⟨-, hu⟩)
        · exact hu
        · exact absurd hu (hnoprev hc a)
  · intro a b
    show (L2.getD b {}).prev = some a ↔ _
    rw [mpr, lpr, hAfter]
    by_cases hc : lv k ≤ s.level ∧ k > 0
    · obtain ⟨p, p1, p2, p3⟩ := hprev hc
      simp only [eq_true hc, true_and, p2, p3]
      by_cases hbk : b = k
      · subst hbk
        simp only [if_true, true_and]
        constructor
        · intro he; cases he; exact Or.inr rfl
        · rintro (hu | rfl)
          · exact absurd hu (hka a)
          · rfl
      · simp only [hbk, if_false, false_and, or_false]; exact hs.prev a b
    · simp only [eq_false hc, false_and, if_false, hs.prev a b]
      constructor
      · exact Or.inl
      · rintro (hu | ⟨-, hu⟩)
        · exact hu
        · exact absurd hu (hnoprev hc a)
  · intro p c
    show (L2.getD p {}).first = some c ↔ _
    rw [mf, lf]
    by_cases hpos : 0 < lv k
    · obtain ⟨q, q1, q2, q3, q4⟩ := hpar hpos
      simp only [hpos, true_and, q2]
      by_cases hpq : p = q ∧ lv k > s.level
      · rw [if_pos hpq]
        obtain ⟨rfl, hgt⟩ := hpq
        have hno := q4.mp hgt
        constructor
        · intro he; cases he
          refine ⟨(q3 p).mpr rfl, fun c' hc' => ?_⟩
          rcases (hUnder p c').mp hc' with hu | ⟨rfl, hu⟩
          · exact absurd hu (hno c')
          · exact Nat.le_refl _
        · rintro ⟨hu, -⟩
          rcases (hUnder p c).mp hu with hu | ⟨rfl, hu⟩
          · exact absurd hu (hno c)
          · rfl
      · rw [if_neg hpq, hs.first]
        by_cases hp : p = q
        · subst hp
          have hex : ∃ c0, Under k lv p c0 := by
            by_contra hno
            exact hpq ⟨rfl, q4.mpr (fun c hc => hno ⟨c, hc⟩)⟩
          obtain ⟨c0, hc0⟩ := hex
          constructor
          · rintro ⟨hu, hm⟩
            refine ⟨(hUnder p c).mpr (Or.inl hu), fun c' hc' => ?_⟩
            rcases (hUnder p c').mp hc' with hu' | ⟨rfl, -⟩
            · exact hm c' hu'
            · have := hu.2.1; omega
          · rintro ⟨hu, hm⟩
            have h5 := hm c0 ((hUnder p c0).mpr (Or.inl hc0))
            rcases (hUnder p c).mp hu with hu' | ⟨rfl, -⟩
            · exact ⟨hu', fun c' hc' => hm c' ((hUnder p c').mpr (Or.inl hc'))⟩
            · have := hc0.2.1; omega
        · have he : ∀ c, Under (k + 1) lv p c ↔ Under k lv p c := by
            intro c
            rw [hUnder]
            constructor
            · rintro (hu | ⟨-, hu⟩)
              · exact hu
              · exact absurd ((q3 p).mp hu) hp
            · exact Or.inl
          simp only [he]
    · simp only [hpos, false_and, if_false, hs.first]
      have he : ∀ c, Under (k + 1) lv p c ↔ Under k lv p c := by
        intro c
        rw [hUnder]
        constructor
        · rintro (hu | ⟨-, hu⟩)
          · exact hu
          · exact absurd hu (hnopar hpos p)
        · exact Or.inl
      simp only [he]
  · intro p c
    show (L2.getD p {}).last = some c ↔ _
    rw [ml, ll]
    by_cases hpos : 0 < lv k
    · obtain ⟨q, q1, q2, q3, q4⟩ := hpar hpos
      simp only [hpos, true_and, q2]
      by_cases hpq : p = q
      · rw [if_pos hpq]
        subst hpq
        have hku' := (q3 p).mpr rfl
        constructor
        · intro he; cases he
          refine ⟨hku', fun c' hc' => ?_⟩
          have := hc'.2.1; omega
        · rintro ⟨hu, hm⟩
          have := hm k hku'
          have := hu.2.1
          congr 1; omega
      · rw [if_neg hpq, hs.last]
        have he : ∀ c, Under (k + 1) lv p c ↔ Under k lv p c := by
          intro c
          rw [hUnder]
          constructor
          · rintro (hu | ⟨-, hu⟩)
            · exact hu
            · exact absurd ((q3 p).mp hu) hpq
          · exact Or.inl
        simp only [he]
    · simp only [hpos, false_and, if_false, hs.last]
      have he : ∀ c, Under (k + 1) lv p c ↔ Under k lv p c := by
        intro c
        rw [hUnder]
        constructor
        · rintro (hu | ⟨-, hu⟩)
          · exact hu
          · exact absurd hu (hnopar hpos p)
        · exact Or.inl
      simp only [he]

theorem outLoop_inv {L : List Int} (h : LevelsOk L.length (fun i => L.getD i 0)) (r : List Int) : ∀ (k : Nat) (s : OutSt), L = L.take k ++ r → k + r.length = L.length →
    OutInv L.length (fun i => L.getD i 0) k s → OutInv L.length (fun i => L.getD i 0) L.length (outLoop L.length k r s) := by
  induction r with
  | nil => intro k s hL hk hs; simp at hk; rw [← hk]; rw [← hk] at hs; exact hs
  | cons a r ih =>
    intro k s hL hk hs
    simp only [List.length_cons] at hk
    have ha : L.getD k 0 = a := by
      rw [hL, List.getD_eq_getElem?_getD, List.getElem?_append_right (by simp; omega)]
      simp [show k - min k L.length = 0 by omega]
    unfold outLoop
    refine ih (k + 1) _ ?_ (by omega) ?_
    · rw [List.take_add_one, List.append_assoc]
      rw [show L[k]?.toList = [a] by
        rw [List.getElem?_eq_getElem (by omega)]
        rw [List.getD_eq_getElem?_getD, List.getElem?_eq_getElem (by omega)] at ha
        simpa using ha]
      exact hL
    · have := outStep_inv h k (by omega) s hs
      rw [ha] at this
      exact this

/-- The links the loop computes are the links of the outline. -/
theorem outlineLinks_spec (L : List Int) (hne : L ≠ []) (h : LevelsOk L.length (fun i => L.getD i 0)) :
    (outlineLinks L).links.length = L.length ∧
    IsOutline L.length (fun i => L.getD i 0)
      (fun i => let o := (outlineLinks L).links.getD i {}; ⟨o.parent, o.prev, o.next, o.first, o.last⟩) 0 (outlineLinks L).lastTop := by
  have hpos : 0 < L.length := by cases L with | nil => exact absurd rfl hne | cons a r => simp
  have h0 : OutInv L.length (fun i => L.getD i 0) 0 { links := List.replicate L.length {} } := by
    have hd : ∀ i, (List.replicate L.length ({} : OutLinks)).getD i {} = {} := by
      intro i
      rw [List.getD_eq_getElem?_getD, List.getElem?_replicate]
      split <;> rfl
    have nu : ∀ p c, ¬ Under 0 (fun i => L.getD i 0) p c := fun p c hu => by have := hu.2.1; omega
    have na : ∀ p c, ¬ After 0 (fun i => L.getD i 0) p c := fun p c hu => by have := hu.2.1; omega
    refine ⟨by simp, by intro i hi; omega, rfl, fun p c hu => absurd hu (nu p c), ?_, ?_, ?_, ?_, ?_⟩
    · intro c hc; have := hc.1; omega
    all_goals intro a b; simp only [hd, nu, na]; simp
  have hI := outLoop_inv h L 0 _ (by simp) (by simp) h0
  refine ⟨hI.len, ?_⟩
  have htop0 : Top L.length (fun i => L.getD i 0) 0 := ⟨hpos, by intro j hj; omega⟩
  refine ⟨hI.parent, hI.top, fun a b _ => hI.next a b, fun a b _ => hI.prev a b, fun a b _ => hI.first a b, fun a b _ => hI.last a b, ⟨htop0, fun c _ => Nat.zero_le c⟩, ?_⟩
  obtain ⟨i, i1, i2, i3⟩ := last_at h L.length (Nat.le_refl _) hpos 0 (Int.le_refl 0) (h.pos (L.length - 1) (by omega))
  have hl : (outlineLinks L).lastTop = i := by
    have := hI.lru i i1 (fun j h4 h5 => by have := i3 j h4 h5; omega)
    rw [show L.getD i 0 = 0 from i2] at this
    exact this
  rw [hl]
  refine ⟨⟨i1, fun j hj => ?_⟩, fun c hc => ?_⟩
  · show L.getD i 0 ≤ _
    rw [show L.getD i 0 = 0 from i2]; exact h.pos j (by omega)
  · by_contra hgt
    have h5 := i3 c (by omega) hc.1
    have h6 := hc.2 0 (by omega)
    have h7 := h.zero
    simp only at h5 h6 h7
    omega

end Verif.Proof
