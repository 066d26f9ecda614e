import Verif.Model.Wrap
import Verif.Spec.Wrap
/-
`SplitLines` and `SplitText` wrap text as specified.
-/
namespace Verif.Proof
open Verif Verif.Model Verif.Spec

theorem width_nil (w : Nat → Int) : width w [] = 0 := rfl
theorem width_append (w : Nat → Int) (a b : List Nat) : width w (a ++ b) = width w a + width w b := by simp [width]
theorem width_cons (w : Nat → Int) (c : Nat) (b : List Nat) : width w (c :: b) = w c + width w b := by simp [width]

/-- What `scanSplit` knows after walking over `pre` (the part of the line read so far): no newline, everything fits, the last separator. -/
structure Walked (isSep : Nat → Bool) (w : Nat → Int) (wmax : Int) (j : Nat) (pre : List Nat) (i : Nat) (sep : Option Nat) (l : Int) : Prop where
  pos : i = j + pre.length
  sum : l = width w pre
  nonl : 10 ∉ pre
  fits : ∀ n, n ≤ pre.length → pre.take n = [] ∨ width w (pre.take n) ≤ wmax
  sepn : sep = none → ∀ x ∈ pre, isSep x = false
  seps : ∀ p, sep = some p → ∃ a c b, pre = a ++ c :: b ∧ p = j + a.length ∧ isSep c = true ∧ ∀ x ∈ b, isSep x = false

theorem scanSplit_none {isSep : Nat → Bool} {w : Nat → Int} {wmax : Int} {j : Nat} (cs : List Nat) : ∀ {pre : List Nat} {i : Nat} {sep : Option Nat} {l : Int},
    Walked isSep w wmax j pre i sep l → scanSplit isSep w wmax j cs i sep l = none → 10 ∉ pre ++ cs ∧ (pre ++ cs = [] ∨ width w (pre ++ cs) ≤ wmax) := by
  induction cs with
  | nil =>
    intro pre i sep l hw _
    have := hw.fits pre.length (Nat.le_refl _)
    rw [List.take_length] at this
    simpa using ⟨hw.nonl, this⟩
  | cons c cs ih =>
    intro pre i sep l hw h
    unfold scanSplit at h
    dsimp only at h
    split at h
    · split at h
      · split at h <;> cases h
      · cases h
    · next hc =>
      have hc1 : c ≠ 10 := fun h => hc (.inl h)
      have hc2 : l + w c ≤ wmax := by
        rcases Int.lt_or_le wmax (l + w c) with h | h
        · exact absurd (.inr h) hc
        · exact h
      have key := ih (pre := pre ++ [c]) (i := i + 1) (sep := if isSep c = true then some i else sep) (l := l + w c) ⟨?_, ?_, ?_, ?_, ?_, ?_⟩ h
      · simpa [List.append_assoc] using key
      · rw [hw.pos]; simp; omega
      · rw [hw.sum, width_append]; simp [width]
      · simp [hw.nonl, Ne.symm hc1]
      · intro n hn
        by_cases h1 : n ≤ pre.length
        · have := hw.fits n h1
          rwa [List.take_append_of_le_length h1]
        · have h2 : n = (pre ++ [c]).length := by simp at hn ⊢; omega
          rw [h2, List.take_length, width_append]
          right; rw [← hw.sum]; simpa [width] using hc2
      · intro hs x hx
        split at hs
        · cases hs
        · next hn =>
          rcases List.mem_append.mp hx with hx | hx
          · exact hw.sepn hs x hx
          · simp only [List.mem_cons, List.not_mem_nil, or_false] at hx; subst hx; simpa using hn
      · intro p hp
        split at hp
        · next hs => cases hp; exact ⟨pre, c, [], rfl, hw.pos, hs, by simp⟩
        · next hs =>
          obtain ⟨a, d, b, e1, e2, e3, e4⟩ := hw.seps p hp
          refine ⟨a, d, b ++ [c], by rw [e1]; simp, e2, e3, ?_⟩
          intro x hx
          rcases List.mem_append.mp hx with hx | hx
          · exact e4 x hx
          · simp only [List.mem_cons, List.not_mem_nil, or_false] at hx; subst hx; simpa using hs

/-- How a line can end, in terms of the text `t` from its start on; `n` and `m` are the lengths of the line and of what is consumed. -/
inductive Ends (isSep : Nat → Bool) (w : Nat → Int) (wmax : Int) : List Nat → Nat → Nat → Prop
  | newline {l r : List Nat} : 10 ∉ l → (l = [] ∨ width w l ≤ wmax) → Ends isSep w wmax (l ++ 10 :: r) l.length (l.length + 1)
  | space {l : List Nat} {c : Nat} {word r : List Nat} : isSep c = true → c ≠ 10 → 10 ∉ l → (l = [] ∨ width w l ≤ wmax) → (∀ x ∈ word, isSep x = false) →
      wmax < width w (l ++ c :: word) → Ends isSep w wmax (l ++ c :: (word ++ r)) l.length (l.length + 1)
  | cut {l : List Nat} {c : Nat} {r : List Nat} : (∀ x ∈ l, isSep x = false) → isSep c = false → 10 ∉ l → l ≠ [] → width w l ≤ wmax →
      wmax < width w (l ++ [c]) → Ends isSep w wmax (l ++ c :: r) l.length l.length
  | single {c : Nat} {r : List Nat} : isSep c = false → c ≠ 10 → wmax < w c → Ends isSep w wmax (c :: r) 1 1

theorem scanSplit_some {isSep : Nat → Bool} {w : Nat → Int} {wmax : Int} {j : Nat} (hnl : isSep 10 = true) (cs : List Nat) : ∀ {pre : List Nat} {i : Nat} {sep : Option Nat} {l : Int} {e : LineEnd},
    Walked isSep w wmax j pre i sep l → scanSplit isSep w wmax j cs i sep l = some e → ∃ n m, Ends isSep w wmax (pre ++ cs) n m ∧ e.stop = j + n ∧ e.next = j + m := by
  induction cs with
  | nil => intro pre i sep l e _ h; simp [scanSplit] at h
  | cons c cs ih =>
    intro pre i sep l e hw h
    have htake : pre = [] ∨ width w pre ≤ wmax := by have := hw.fits pre.length (Nat.le_refl _); rwa [List.take_length] at this
    unfold scanSplit at h
    dsimp only at h
    split at h
    · next hc =>
      by_cases hs : isSep c = true
      · rw [if_pos hs] at h
        dsimp only at h
        cases h
        refine ⟨pre.length, pre.length + 1, ?_, hw.pos, by rw [hw.pos]; rfl⟩
        by_cases h10 : c = 10
        · subst h10; exact .newline hw.nonl htake
        · refine .space (word := []) (r := cs) hs h10 hw.nonl htake (by simp) ?_
          have := hc.resolve_left h10
          rw [width_append, ← hw.sum]; simpa [width] using this
      · have h10 : c ≠ 10 := fun h => hs (h ▸ hnl)
        have hover : wmax < width w (pre ++ [c]) := by
          have := hc.resolve_left h10
          rw [width_append, ← hw.sum]; simpa [width] using this
        rw [if_neg hs] at h
        cases hsep : sep with
        | none =>
          rw [hsep] at h
          dsimp only at h
          by_cases hij : i = j
          · rw [if_pos hij] at h
            cases h
            have hp : pre = [] := List.length_eq_zero_iff.mp (by have := hw.pos; omega)
            subst hp
            refine ⟨1, 1, .single (by simpa using hs) h10 (by simpa [width] using hover), by rw [hij], by rw [hij]⟩
          · rw [if_neg hij] at h
            cases h
            have hp : pre ≠ [] := fun h => hij (by rw [hw.pos, h]; simp)
            exact ⟨pre.length, pre.length, .cut (hw.sepn hsep) (by simpa using hs) hw.nonl hp (htake.resolve_left hp) hover, hw.pos, hw.pos⟩
        | some p =>
          rw [hsep] at h
          dsimp only at h
          cases h
          obtain ⟨a, d, b, e1, e2, e3, e4⟩ := hw.seps p hsep
          refine ⟨a.length, a.length + 1, ?_, e2, by rw [e2]; rfl⟩
          have e5 : pre ++ c :: cs = a ++ d :: ((b ++ [c]) ++ cs) := by rw [e1]; simp
          rw [e5]
          refine .space e3 ?_ ?_ ?_ ?_ ?_
          · intro hd; subst hd; exact hw.nonl (by rw [e1]; simp)
          · intro hd; exact hw.nonl (by rw [e1]; simp [hd])
          · have := hw.fits a.length (by rw [e1]; simp)
            rwa [e1, List.take_left] at this
          · intro x hx
            rcases List.mem_append.mp hx with hx | hx
            · exact e4 x hx
            · simp only [List.mem_cons, List.not_mem_nil, or_false] at hx; subst hx; simpa using hs
          · rw [e1] at hover; simpa using hover
    · next hc =>
      have hc1 : c ≠ 10 := fun h => hc (.inl h)
      have hc2 : l + w c ≤ wmax := by
        rcases Int.lt_or_le wmax (l + w c) with h | h
        · exact absurd (.inr h) hc
        · exact h
      have key := ih (pre := pre ++ [c]) (i := i + 1) (sep := if isSep c = true then some i else sep) (l := l + w c) (e := e) ⟨?_, ?_, ?_, ?_, ?_, ?_⟩ h
      · simpa [List.append_assoc] using key
      · rw [hw.pos]; simp; omega
      · rw [hw.sum, width_append]; simp [width]
      · simp [hw.nonl, Ne.symm hc1]
      · intro n hn
        by_cases h1 : n ≤ pre.length
        · have := hw.fits n h1
          rwa [List.take_append_of_le_length h1]
        · have h2 : n = (pre ++ [c]).length := by simp at hn ⊢; omega
          rw [h2, List.take_length, width_append]
          right; rw [← hw.sum]; simpa [width] using hc2
      · intro hs x hx
        split at hs
        · cases hs
        · next hn =>
          rcases List.mem_append.mp hx with hx | hx
          · exact hw.sepn hs x hx
          · simp only [List.mem_cons, List.not_mem_nil, or_false] at hx; subst hx; simpa using hn
      · intro p hp
        split at hp
        · next hs => cases hp; exact ⟨pre, c, [], rfl, hw.pos, hs, by simp⟩
        · next hs =>
          obtain ⟨a, d, b, e1, e2, e3, e4⟩ := hw.seps p hp
          refine ⟨a, d, b ++ [c], by rw [e1]; simp, e2, e3, ?_⟩
          intro x hx
          rcases List.mem_append.mp hx with hx | hx
          · exact e4 x hx
          · simp only [List.mem_cons, List.not_mem_nil, or_false] at hx; subst hx; simpa using hs

theorem Walked.start (isSep : Nat → Bool) (w : Nat → Int) (wmax : Int) (j : Nat) : Walked isSep w wmax j [] j none 0 :=
  ⟨by simp, rfl, by simp, by intro n _; simp, by simp, by simp⟩

/-- A line and the rest of the text. -/
theorem Ends.wrapped {isSep : Nat → Bool} {w : Nat → Int} {wmax : Int} {keep : Bool} {t : List Nat} {n m : Nat} (h : Ends isSep w wmax t n m) {ls : List (List Nat)}
    (hr : Wrapped isSep w wmax keep (t.drop m) ls) : Wrapped isSep w wmax keep t (t.take n :: ls) := by
  cases h with
  | @newline l r h1 h2 =>
    rw [List.take_left]
    exact .newline h1 h2 (by simpa using hr)
  | @space l c word r h1 h2 h3 h4 h5 h6 =>
    rw [List.take_left]
    exact .space h1 h2 h3 h4 h5 h6 (by simpa using hr)
  | @cut l c r h1 h2 h3 h4 h5 h6 =>
    rw [List.take_left]
    exact .cut h1 h2 h3 h4 h5 h6 (by simpa using hr)
  | @single c r h1 h2 h3 =>
    exact .single h1 h2 h3 (by simpa using hr)

theorem splitLoop_wrapped {isSep : Nat → Bool} {w : Nat → Int} {wmax : Int} (hnl : isSep 10 = true) (s : List Nat) (j : Nat) :
    Wrapped isSep w wmax false (s.drop j) ((splitLoop isSep w wmax s j).map fun p => slice s p.1 p.2) := by
  fun_induction splitLoop isSep w wmax s j with
  | case1 j hj e he ih =>
    obtain ⟨n, m, h1, h2, h3⟩ := scanSplit_some hnl (s.drop j) (Walked.start isSep w wmax j) he
    rw [List.nil_append] at h1
    rw [List.map_cons]
    have e1 : slice s j e.stop = (s.drop j).take n := by unfold slice; rw [h2]; congr 1; omega
    rw [h3, ← List.drop_drop] at ih
    dsimp only
    rw [e1]
    rw [h3]
    exact h1.wrapped ih
  | case2 j hj he =>
    obtain ⟨h1, h2⟩ := scanSplit_none (s.drop j) (Walked.start isSep w wmax j) he
    rw [List.nil_append] at h1 h2
    have e1 : slice s j s.length = s.drop j := by unfold slice; rw [List.take_of_length_le (by simp)]
    simp only [List.map_cons, List.map_nil]
    rw [e1]
    refine .last (.inr ?_) h1 h2
    intro h
    have := congrArg List.length h
    simp at this; omega
  | case3 j hj =>
    rw [List.drop_eq_nil_of_le (by omega)]
    exact .done rfl

/-! ### Consequences -/

/-- A line with what is dropped behind it. -/
theorem wrapped_parts {isSep : Nat → Bool} {w : Nat → Int} {wmax : Int} {keep : Bool} {s : List Nat} {ls : List (List Nat)} (h : Wrapped isSep w wmax keep s ls) :
    ∃ ds : List (List Nat), ds.length = ls.length ∧ s = (List.zipWith (· ++ ·) ls ds).flatten ∧ ∀ d ∈ ds, d = [] ∨ ∃ c, (c = 10 ∨ isSep c = true) ∧ d = [c] := by
  induction h with
  | done => exact ⟨[], rfl, rfl, by simp⟩
  | @last l => exact ⟨[[]], rfl, by simp, by simp⟩
  | @newline l r ls h1 h2 _ ih =>
    obtain ⟨ds, e1, e2, e3⟩ := ih
    refine ⟨[10] :: ds, by simp [e1], by simp [e2], ?_⟩
    intro d hd
    rcases List.mem_cons.mp hd with rfl | hd
    · exact .inr ⟨10, .inl rfl, rfl⟩
    · exact e3 d hd
  | @space l c word r ls h1 _ _ _ _ _ _ ih =>
    obtain ⟨ds, e1, e2, e3⟩ := ih
    refine ⟨[c] :: ds, by simp [e1], by simp [e2], ?_⟩
    intro d hd
    rcases List.mem_cons.mp hd with rfl | hd
    · exact .inr ⟨c, .inr h1, rfl⟩
    · exact e3 d hd
  | @cut l c r ls _ _ _ _ _ _ _ ih =>
    obtain ⟨ds, e1, e2, e3⟩ := ih
    refine ⟨[] :: ds, by simp [e1], by simp [e2], ?_⟩
    intro d hd
    rcases List.mem_cons.mp hd with rfl | hd
    · exact .inl rfl
    · exact e3 d hd
  | @single c r ls _ _ _ _ ih =>
    obtain ⟨ds, e1, e2, e3⟩ := ih
    refine ⟨[] :: ds, by simp [e1], by simp [e2], ?_⟩
    intro d hd
    rcases List.mem_cons.mp hd with rfl | hd
    · exact .inl rfl
    · exact e3 d hd

theorem wrapped_fits {isSep : Nat → Bool} {w : Nat → Int} {wmax : Int} {keep : Bool} {s : List Nat} {ls : List (List Nat)} (h : Wrapped isSep w wmax keep s ls) :
    ∀ l ∈ ls, 10 ∉ l ∧ (l.length ≤ 1 ∨ width w l ≤ wmax) := by
  have hm : ∀ {l : List Nat} {ls : List (List Nat)}, (10 ∉ l ∧ (l.length ≤ 1 ∨ width w l ≤ wmax)) → (∀ l ∈ ls, 10 ∉ l ∧ (l.length ≤ 1 ∨ width w l ≤ wmax)) →
      ∀ x ∈ l :: ls, 10 ∉ x ∧ (x.length ≤ 1 ∨ width w x ≤ wmax) := by
    intro l ls h1 h2 x hx
    rcases List.mem_cons.mp hx with rfl | hx
    · exact h1
    · exact h2 x hx
  have hf : ∀ {l : List Nat}, (l = [] ∨ width w l ≤ wmax) → l.length ≤ 1 ∨ width w l ≤ wmax := by
    intro l h
    rcases h with rfl | h
    · exact .inl (by simp)
    · exact .inr h
  induction h with
  | done => simp
  | last _ h1 h2 => exact hm ⟨h1, hf h2⟩ (by simp)
  | newline h1 h2 _ ih => exact hm ⟨h1, hf h2⟩ ih
  | space _ _ h1 h2 _ _ _ ih => exact hm ⟨h1, hf h2⟩ ih
  | cut _ _ h1 _ h2 _ _ ih => exact hm ⟨h1, .inr h2⟩ ih
  | single _ h1 _ _ ih => exact hm ⟨by simp [Ne.symm h1], .inl (by simp)⟩ ih

/-! ### The loop as it is written -/

/-- Any number of iterations. -/
inductive Iter (isSep : Nat → Bool) (w : Nat → Int) (wmax : Int) (s : List Nat) : SplitSt → SplitSt → Prop
  | refl (v : SplitSt) : Iter isSep w wmax s v v
  | step {v v' v'' : SplitSt} : splitStep isSep w wmax s v = some v' → Iter isSep w wmax s v' v'' → Iter isSep w wmax s v v''

theorem Iter.trans {isSep : Nat → Bool} {w : Nat → Int} {wmax : Int} {s : List Nat} {a b c : SplitSt} (h1 : Iter isSep w wmax s a b) (h2 : Iter isSep w wmax s b c) : Iter isSep w wmax s a c := by
  induction h1 with
  | refl => exact h2
  | step h _ ih => exact .step h (ih h2)

/-- One line of the loop as written is one `scanSplit`. -/
theorem iter_line {isSep : Nat → Bool} {w : Nat → Int} {wmax : Int} {s : List Nat} (cs : List Nat) : ∀ (v : SplitSt), s.drop v.i = cs →
    match scanSplit isSep w wmax v.j cs v.i v.sep v.l with
    | some e => Iter isSep w wmax s v { i := e.next, j := e.next, lines := v.lines ++ [(v.j, e.stop)] }
    | none => ∃ sep l, Iter isSep w wmax s v { i := v.i + cs.length, j := v.j, sep := sep, l := l, lines := v.lines } := by
  induction cs with
  | nil =>
    intro v hv
    simp only [scanSplit]
    exact ⟨v.sep, v.l, .refl _⟩
  | cons c cs ih =>
    intro v hv
    have hc : s[v.i]? = some c := by
      have := congrArg (fun l : List Nat => l[0]?) hv
      simpa using this
    have hcs : s.drop (v.i + 1) = cs := by
      have := congrArg List.tail hv
      simpa using this
    unfold scanSplit
    dsimp only
    by_cases hb : c = 10 ∨ v.l + w c > wmax
    · rw [if_pos hb]
      cases hsep : (if isSep c = true then some v.i else v.sep) with
      | none =>
        dsimp only
        by_cases hij : v.i = v.j
        · rw [if_pos hij]
          refine .step (v' := { i := v.i + 1, j := v.i + 1, lines := v.lines ++ [(v.j, v.i + 1)] }) ?_ (.refl _)
          unfold splitStep
          rw [hc]
          dsimp only
          rw [if_pos hb, hsep]
          simp [hij]
        · rw [if_neg hij]
          refine .step (v' := { i := v.i, j := v.i, lines := v.lines ++ [(v.j, v.i)] }) ?_ (.refl _)
          unfold splitStep
          rw [hc]
          dsimp only
          rw [if_pos hb, hsep]
          simp [hij]
      | some p =>
        dsimp only
        refine .step (v' := { i := p + 1, j := p + 1, lines := v.lines ++ [(v.j, p)] }) ?_ (.refl _)
        unfold splitStep
        rw [hc]
        dsimp only
        rw [if_pos hb, hsep]
    · rw [if_neg hb]
      have hstep : splitStep isSep w wmax s v = some { v with i := v.i + 1, sep := if isSep c = true then some v.i else v.sep, l := v.l + w c } := by
        unfold splitStep
        rw [hc]
        dsimp only
        rw [if_neg hb]
      have key := ih { v with i := v.i + 1, sep := if isSep c = true then some v.i else v.sep, l := v.l + w c } hcs
      dsimp only at key
      split at key
      · exact .step hstep key
      · obtain ⟨sep, l, h⟩ := key
        refine ⟨sep, l, .step hstep ?_⟩
        have e : v.i + (c :: cs).length = v.i + 1 + cs.length := by simp; omega
        rw [e]; exact h

/-- No line ends beyond the text. -/
theorem scanSplit_le (isSep : Nat → Bool) (w : Nat → Int) (wmax : Int) (j : Nat) (cs : List Nat) :
    ∀ (i : Nat) (sep : Option Nat) (l : Int), (∀ p, sep = some p → p < i) → ∀ e, scanSplit isSep w wmax j cs i sep l = some e → e.next ≤ i + cs.length := by
  induction cs with
  | nil => intro i sep l _ e h; simp [scanSplit] at h
  | cons c cs ih =>
    intro i sep l hsep e h
    unfold scanSplit at h
    have hsep' : ∀ p, (if isSep c then some i else sep) = some p → p < i + 1 := by
      intro p hp
      split at hp
      · cases hp; omega
      · have := hsep p hp; omega
    generalize hs : (if isSep c then some i else sep) = sep' at h hsep'
    dsimp only at h
    split at h
    · cases sep' with
      | none =>
        dsimp only at h
        split at h <;> cases h <;> simp <;> omega
      | some p => dsimp only at h; cases h; have := hsep' p rfl; simp; omega
    · have := ih (i + 1) _ _ hsep' e h
      simp only [List.length_cons]; omega

theorem splitLoop_some {isSep : Nat → Bool} {w : Nat → Int} {wmax : Int} {s : List Nat} {j : Nat} {e : LineEnd} (hj : j < s.length)
    (h : scanSplit isSep w wmax j (s.drop j) j none 0 = some e) : splitLoop isSep w wmax s j = (j, e.stop) :: splitLoop isSep w wmax s e.next := by
  rw [splitLoop, if_pos hj]
  split
  · next e' h' => rw [h] at h'; cases h'; rfl
  · next h' => rw [h] at h'; cases h'

theorem splitLoop_none {isSep : Nat → Bool} {w : Nat → Int} {wmax : Int} {s : List Nat} {j : Nat} (hj : j < s.length)
    (h : scanSplit isSep w wmax j (s.drop j) j none 0 = none) : splitLoop isSep w wmax s j = [(j, s.length)] := by
  rw [splitLoop, if_pos hj]
  split
  · next e' h' => rw [h] at h'; cases h'
  · rfl

theorem splitLoop_end {isSep : Nat → Bool} {w : Nat → Int} {wmax : Int} {s : List Nat} {j : Nat} (hj : ¬ j < s.length) : splitLoop isSep w wmax s j = [] := by
  rw [splitLoop, if_neg hj]

/-- The loop as written ends, and gives the lines of `splitLoop`. -/
theorem iter_splitLoop {isSep : Nat → Bool} {w : Nat → Int} {wmax : Int} (s : List Nat) (j : Nat) (lines : List (Nat × Nat)) (hj : j ≤ s.length) :
    ∃ v, Iter isSep w wmax s { i := j, j := j, lines := lines } v ∧ splitStep isSep w wmax s v = none ∧ splitEnd v = lines ++ splitLoop isSep w wmax s j := by
  induction hn : s.length - j using Nat.strongRecOn generalizing j lines with
  | _ n ih =>
    have hd := iter_line (isSep := isSep) (w := w) (wmax := wmax) (s := s) (s.drop j) { i := j, j := j, lines := lines } rfl
    dsimp only at hd
    by_cases hlt : j < s.length
    · split at hd
      · next e he =>
        have h1 := scanSplit_next isSep w wmax j _ j none 0 (Nat.le_refl j) (by simp) e he
        have h2 := scanSplit_le isSep w wmax j (s.drop j) j none 0 (by simp) e he
        simp only [List.length_drop] at h2
        have h2 : e.next ≤ s.length := by omega
        obtain ⟨v, hv1, hv2, hv3⟩ := ih (s.length - e.next) (by omega) e.next (lines ++ [(j, e.stop)]) h2 rfl
        refine ⟨v, hd.trans hv1, hv2, ?_⟩
        rw [hv3, splitLoop_some hlt he]
        simp
      · next he =>
        obtain ⟨sep, l, h⟩ := hd
        have e1 : j + (s.drop j).length = s.length := by simp; omega
        rw [e1] at h
        refine ⟨_, h, ?_, ?_⟩
        · unfold splitStep; simp
        · rw [splitLoop_none hlt he]; unfold splitEnd; simp [Nat.ne_of_gt hlt]
    · rw [splitLoop_end hlt]
      refine ⟨_, .refl _, ?_, ?_⟩
      · unfold splitStep
        have : s[j]? = none := by simp; omega
        simp [this]
      · simp [splitEnd]

end Verif.Proof
