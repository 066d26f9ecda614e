import Verif.Props.Ttf
/-
Claim C43: the character map of a subset font.
-/
namespace Verif.Props
open Verif Verif.Model Verif.Spec Verif.Proof

/-- Words in a table. -/
theorem u16At_words (l : List Int) (i : Nat) : u16At (l.flatMap packUint16) (2 * i) = (l.getD i 0 % 65536).toNat := by
  induction l generalizing i with
  | nil =>
    have e : ∀ n : Nat, u16At [] n = 0 := fun n => by unfold u16At byteAt; simp
    rw [List.flatMap_nil, e]
    simp
  | cons w l ih =>
    rw [List.flatMap_cons]
    cases i with
    | zero => exact u16At_pack w _
    | succ i =>
      have := u16At_app (packUint16 w) (l.flatMap packUint16) (2 * i)
      rw [pack16_length] at this
      rw [show 2 * (i + 1) = 2 + 2 * i by omega, this, ih, List.getD_cons_succ]

theorem getD_left {α : Type} (a b : List α) (i : Nat) (d : α) (h : i < a.length) : (a ++ b).getD i d = a.getD i d := by
  rw [List.getD_eq_getElem?_getD, List.getD_eq_getElem?_getD, List.getElem?_append_left h]

theorem getD_right {α : Type} (a b : List α) (i : Nat) (d : α) : (a ++ b).getD (a.length + i) d = b.getD i d := by
  rw [List.getD_eq_getElem?_getD, List.getD_eq_getElem?_getD, List.getElem?_append_right (by omega), Nat.add_sub_cancel_left]

/-- The words of the table for segments `segs`. -/
def cmapWords (segs : List (Nat × List Nat)) (len : Nat) : List Int :=
  [0, 1, 3, 1, 0, 12, 4, (len : Int), 0, (((segs.length + 1) * 2 : Nat) : Int), (((powLoop 1 0 (segs.length + 1)).1 * 2 : Nat) : Int), ((powLoop 1 0 (segs.length + 1)).2 : Int),
      (((segs.length + 1) * 2 : Nat) : Int) - (((powLoop 1 0 (segs.length + 1)).1 * 2 : Nat) : Int)]
    ++ (segs.map (fun g => ((g.1 + (g.2.length - 1) : Nat) : Int)) ++ ([0xFFFF, 0]
    ++ (segs.map (fun g => (g.1 : Int)) ++ ([0xFFFF]
    ++ (segs.map (fun g => -((g.1 : Int) - (g.2.headD 0 : Nat))) ++ ([1]
    ++ (segs.map (fun _ => (0 : Int)) ++ ([0]
    ++ (segs.flatMap (fun g => g.2.map fun x : Nat => (x : Int)) ++ [0])))))))))

theorem table_words (pairs : List (Nat × Nat)) (ns : Nat) :
    generateCMAPTable pairs ns = (cmapWords (cmapSegs (pairs.mergeSort fun a b => a.1 ≤ b.1)) (16 + 8 * ((cmapSegs (pairs.mergeSort fun a b => a.1 ≤ b.1)).length + 1) + (ns + 1))).flatMap packUint16 := by
  unfold generateCMAPTable cmapWords
  dsimp only
  simp only [List.append_assoc]

/-- The characters of a segment with their glyphs. -/
def segPairs (g : Nat × List Nat) : List (Nat × Nat) := g.2.zipIdx.map fun e => (g.1 + e.2, e.1)

/-- A segment: glyphs one after the other. -/
def SegOk (g : Nat × List Nat) : Prop := g.2 ≠ [] ∧ ∀ j, j < g.2.length → g.2.getD j 0 = g.2.headD 0 + j

/-- The segments made so far, the last one first. -/
structure SegsOk (segs : List (Nat × List Nat)) (pc ps : Int) (L : List (Nat × Nat)) : Prop where
  ok : ∀ g ∈ segs, SegOk g
  all : L = segs.reverse.flatMap segPairs
  ordered : segs.Pairwise fun a b => b.1 + b.2.length ≤ a.1
  last : ∀ g ∈ segs.head?, pc = (g.1 + g.2.length : Nat) - 1 ∧ ps = (g.2.headD 0 + g.2.length : Nat) - 1
  none : segs = [] → pc = -2

/-- One character of the loop. -/
def segStep (s : List (Nat × List Nat) × Int × Int) (e : Nat × Nat) : List (Nat × List Nat) × Int × Int :=
  let segs :=
    if (e.1 : Int) = s.2.1 + 1 ∧ (e.2 : Int) = s.2.2 + 1 then
      match s.1 with
      | [] => [(0, [e.2])]
      | g :: r => (g.1, g.2 ++ [e.2]) :: r
    else (e.1, [e.2]) :: s.1
  (segs, (e.1 : Int), (e.2 : Int))

theorem segPairs_push (k : Nat) (gs : List Nat) (x : Nat) : segPairs (k, gs ++ [x]) = segPairs (k, gs) ++ [(k + gs.length, x)] := by
  unfold segPairs
  dsimp only
  rw [List.zipIdx_append, List.map_append]
  simp

theorem SegsOk.step {segs : List (Nat × List Nat)} {pc ps : Int} {L : List (Nat × Nat)} (h : SegsOk segs pc ps L) (e : Nat × Nat) (he : pc < e.1) :
    SegsOk (segStep (segs, pc, ps) e).1 (segStep (segs, pc, ps) e).2.1 (segStep (segs, pc, ps) e).2.2 (L ++ [e]) := by
  unfold segStep
  dsimp only
  by_cases hc : (e.1 : Int) = pc + 1 ∧ (e.2 : Int) = ps + 1
  · rw [if_pos hc]
    cases segs with
    | nil =>
      have := h.none rfl
      omega
    | cons g r =>
      dsimp only
      obtain ⟨l1, l2⟩ := h.last g (by simp)
      obtain ⟨o1, o2⟩ := h.ok g (by simp)
      have hlen : 0 < g.2.length := List.length_pos_iff.mpr o1
      have hh : (g.2 ++ [e.2]).headD 0 = g.2.headD 0 := by
        cases hg : g.2 with
        | nil => exact absurd hg o1
        | cons x xs => rfl
      refine ⟨?_, ?_, ?_, ?_, by simp⟩
      · intro x hx
        rcases List.mem_cons.mp hx with rfl | hx
        · refine ⟨by simp, fun j hj => ?_⟩
          dsimp only at hj ⊢
          rw [hh]
          rw [List.length_append, List.length_singleton] at hj
          by_cases hj2 : j < g.2.length
          · rw [getD_left _ _ _ _ hj2]; exact o2 j hj2
          · have : j = g.2.length + 0 := by omega
            rw [this, getD_right]
            show e.2 = _
            omega
        · exact h.ok x (by simp [hx])
      · rw [h.all, List.reverse_cons, List.reverse_cons, List.flatMap_append, List.flatMap_append, List.append_assoc]
        congr 1
        simp only [List.flatMap_singleton]
        rw [segPairs_push]
        congr 2
        apply Prod.ext
        · show e.1 = g.1 + g.2.length
          omega
        · rfl
      · have := h.ordered
        rw [List.pairwise_cons] at this ⊢
        exact this
      · intro x hx
        simp only [List.head?_cons, Option.mem_def, Option.some.injEq] at hx
        subst hx
        dsimp only
        rw [hh, List.length_append, List.length_singleton]
        omega
  · rw [if_neg hc]
    refine ⟨?_, ?_, ?_, ?_, by simp⟩
    · intro x hx
      rcases List.mem_cons.mp hx with rfl | hx
      · refine ⟨by simp, fun j hj => ?_⟩
        simp only [List.length_singleton] at hj
        have : j = 0 := by omega
        subst this
        rfl
      · exact h.ok x hx
    · rw [h.all, List.reverse_cons, List.flatMap_append]
      congr 1
    · rw [List.pairwise_cons]
      refine ⟨fun x hx => ?_, h.ordered⟩
      cases segs with
      | nil => cases hx
      | cons g r =>
        obtain ⟨l1, -⟩ := h.last g (by simp)
        rcases List.mem_cons.mp hx with rfl | hx
        · dsimp only; omega
        · have := (List.pairwise_cons.mp h.ordered).1 x hx
          dsimp only
          omega
    · intro x hx
      simp only [List.head?_cons, Option.mem_def, Option.some.injEq] at hx
      subst hx
      simp

theorem segs_ok (pairs : List (Nat × Nat)) (h : (pairs.map (·.1)).Pairwise (· < ·)) :
    (∀ g ∈ cmapSegs pairs, SegOk g) ∧ pairs = (cmapSegs pairs).flatMap segPairs ∧ (cmapSegs pairs).Pairwise fun a b => a.1 + a.2.length ≤ b.1 := by
  have key : ∀ (l : List (Nat × Nat)) (s : List (Nat × List Nat) × Int × Int) (L : List (Nat × Nat)), SegsOk s.1 s.2.1 s.2.2 L → (∀ x ∈ l, s.2.1 < x.1) → (l.map (·.1)).Pairwise (· < ·) →
      ∃ pc ps, SegsOk (l.foldl segStep s).1 pc ps (L ++ l) := by
    intro l
    induction l with
    | nil => intro s L h _ _; exact ⟨_, _, by simpa using h⟩
    | cons e l ih =>
      intro s L h hlt hp
      rw [List.map_cons, List.pairwise_cons] at hp
      obtain ⟨pc, ps, hh⟩ := ih (segStep s e) (L ++ [e]) (h.step e (hlt e (by simp))) (fun x hx => Int.ofNat_lt.mpr (hp.1 x.1 (List.mem_map_of_mem hx))) hp.2
      exact ⟨pc, ps, by simpa using hh⟩
  obtain ⟨pc, ps, hh⟩ := key pairs ([], -2, -1) [] ⟨by simp, rfl, by simp, by simp, fun _ => rfl⟩ (fun x _ => by show (-2 : Int) < _; omega) h
  rw [List.nil_append] at hh
  have e : cmapSegs pairs = (pairs.foldl segStep ([], -2, -1)).1.reverse := rfl
  rw [e]
  refine ⟨fun g hg => hh.ok g (List.mem_reverse.mp hg), hh.all, ?_⟩
  rw [List.pairwise_reverse]
  exact hh.ordered

theorem mem_segPairs {g : Nat × List Nat} (hg : SegOk g) (c x : Nat) : (c, x) ∈ segPairs g ↔ g.1 ≤ c ∧ c < g.1 + g.2.length ∧ x = g.2.headD 0 + (c - g.1) := by
  unfold segPairs
  rw [List.mem_map]
  constructor
  · rintro ⟨⟨y, j⟩, hm, he⟩
    rw [List.mem_zipIdx_iff_getElem?] at hm
    obtain ⟨hj, hy⟩ := List.getElem?_eq_some_iff.mp hm
    simp only [Prod.mk.injEq] at he
    dsimp only at hj hy
    have := hg.2 j hj
    rw [List.getD_eq_getElem?_getD, hm, Option.getD_some] at this
    dsimp only at this
    omega
  · rintro ⟨h1, h2, h3⟩
    have hj : c - g.1 < g.2.length := by omega
    refine ⟨(x, c - g.1), ?_, ?_⟩
    · rw [List.mem_zipIdx_iff_getElem?]
      have := hg.2 _ hj
      rw [List.getD_eq_getElem?_getD, List.getElem?_eq_getElem hj, Option.getD_some] at this
      dsimp only
      rw [List.getElem?_eq_getElem hj, this, h3]
    · simp only [Prod.mk.injEq]
      exact ⟨by omega, trivial⟩

/-- What the arrays of the table hold. -/
structure Arrays (t : Bytes) (segs : List (Nat × List Nat)) : Prop where
  count : segCount t 12 = segs.length + 1
  ends : ∀ i (h : i < segs.length), endCode t 12 i = (segs[i].1 + (segs[i].2.length - 1)) % 65536
  starts : ∀ i (h : i < segs.length), startCode t 12 i = segs[i].1 % 65536
  deltas : ∀ i (h : i < segs.length), idDelta t 12 i = ((-((segs[i].1 : Int) - (segs[i].2.headD 0 : Nat))) % 65536).toNat
  ranges : ∀ i, i ≤ segs.length → u16At t (idRangePos t 12 i) = 0
  endLast : endCode t 12 segs.length = 0xFFFF
  startLast : startCode t 12 segs.length = 0xFFFF
  deltaLast : idDelta t 12 segs.length = 1

theorem skip_map {α : Type} (segs : List α) (f : α → Int) (b : List Int) (i : Nat) (h : i < segs.length) : (segs.map f ++ b).getD i 0 = f segs[i] := by
  rw [getD_left _ _ _ _ (by simpa using h), List.getD_eq_getElem?_getD, List.getElem?_map, List.getElem?_eq_getElem h]
  rfl

theorem skip_map' {α : Type} (segs : List α) (f : α → Int) (b : List Int) (i : Nat) : (segs.map f ++ b).getD (segs.length + i) 0 = b.getD i 0 := by
  have := getD_right (segs.map f) b i 0
  rwa [List.length_map] at this

theorem arrays (segs : List (Nat × List Nat)) (len : Nat) (hn : segs.length < 32767) : Arrays ((cmapWords segs len).flatMap packUint16) segs := by
  have hc : segCount ((cmapWords segs len).flatMap packUint16) 12 = segs.length + 1 := by
    unfold segCount
    rw [show 12 + 6 = 2 * 9 by rfl, u16At_words]
    show ((((segs.length + 1) * 2 : Nat) : Int) % 65536).toNat / 2 = _
    omega
  have w : ∀ (p i : Nat), p = 2 * i → u16At ((cmapWords segs len).flatMap packUint16) p = ((cmapWords segs len).getD i 0 % 65536).toNat := by
    rintro p i rfl
    exact u16At_words _ _
  have e13 : ∀ i, (cmapWords segs len).getD (13 + i) 0 = (segs.map (fun g : Nat × List Nat => ((g.1 + (g.2.length - 1) : Nat) : Int)) ++ ([(0xFFFF : Int), 0]
    ++ (segs.map (fun g : Nat × List Nat => (g.1 : Int)) ++ ([(0xFFFF : Int)]
    ++ (segs.map (fun g : Nat × List Nat => -((g.1 : Int) - (g.2.headD 0 : Nat))) ++ ([(1 : Int)]
    ++ (segs.map (fun _ : Nat × List Nat => (0 : Int)) ++ ([(0 : Int)]
    ++ (segs.flatMap (fun g : Nat × List Nat => g.2.map fun x : Nat => (x : Int)) ++ [(0 : Int)]))))))))).getD i 0 := fun i => by
    unfold cmapWords
    exact getD_right _ _ i 0
  have two : ∀ (a b : Int) (l : List Int) i, ([a, b] ++ l).getD (2 + i) 0 = l.getD i 0 := fun a b l i => getD_right [a, b] l i 0
  have one : ∀ (a : Int) (l : List Int) i, ([a] ++ l).getD (1 + i) 0 = l.getD i 0 := fun a l i => getD_right [a] l i 0
  refine ⟨hc, ?_, ?_, ?_, ?_, ?_, ?_, ?_⟩
  · intro i h
    unfold endCode
    rw [w _ (13 + i) (by omega), e13, skip_map _ _ _ _ h]
    omega
  · intro i h
    unfold startCode
    rw [hc, w _ (13 + (segs.length + (2 + i))) (by omega), e13, skip_map', two, skip_map _ _ _ _ h]
    omega
  · intro i h
    unfold idDelta
    rw [hc, w _ (13 + (segs.length + (2 + (segs.length + (1 + i))))) (by omega), e13, skip_map', two, skip_map', one, skip_map _ _ _ _ h]
  · intro i h
    unfold idRangePos
    rw [hc, w _ (13 + (segs.length + (2 + (segs.length + (1 + (segs.length + (1 + i))))))) (by omega), e13, skip_map', two, skip_map', one, skip_map', one]
    by_cases hi : i < segs.length
    · rw [skip_map _ _ _ _ hi]; rfl
    · rw [show i = segs.length + 0 by omega, skip_map']; rfl
  · unfold endCode
    rw [w _ (13 + (segs.length + 0)) (by omega), e13, skip_map']
    rfl
  · unfold startCode
    rw [hc, w _ (13 + (segs.length + (2 + (segs.length + 0)))) (by omega), e13, skip_map', two, skip_map']
    rfl
  · unfold idDelta
    rw [hc, w _ (13 + (segs.length + (2 + (segs.length + (1 + (segs.length + 0)))))) (by omega), e13, skip_map', two, skip_map', one, skip_map']
    rfl

/-- Reading the arrays. -/
theorem Arrays.glyph {t : Bytes} {segs : List (Nat × List Nat)} (a : Arrays t segs) (hok : ∀ g ∈ segs, SegOk g) (hord : segs.Pairwise fun a b => a.1 + a.2.length ≤ b.1)
    (hc : ∀ e ∈ segs.flatMap segPairs, e.1 ≤ 0xFFFF ∧ e.2 < 65536) (c : Nat) (hcc : c ≤ 0xFFFF) :
    (∀ x, (c, x) ∈ segs.flatMap segPairs → cmapGlyph t 12 c = x) ∧ ((∀ x, (c, x) ∉ segs.flatMap segPairs) → cmapGlyph t 12 c = 0) := by
  have ends : ∀ i (h : i < segs.length), endCode t 12 i = segs[i].1 + (segs[i].2.length - 1) := by
    intro i h
    have hm : segs[i] ∈ segs := List.getElem_mem h
    have hl := List.length_pos_iff.mpr (hok _ hm).1
    have := (hc _ (List.mem_flatMap.mpr ⟨_, hm, (mem_segPairs (hok _ hm) (segs[i].1 + (segs[i].2.length - 1)) _).mpr ⟨by omega, by omega, rfl⟩⟩)).1
    rw [a.ends i h]
    dsimp only at this
    omega
  have starts : ∀ i (h : i < segs.length), startCode t 12 i = segs[i].1 := by
    intro i h
    have hm : segs[i] ∈ segs := List.getElem_mem h
    have hl := List.length_pos_iff.mpr (hok _ hm).1
    have := (hc _ (List.mem_flatMap.mpr ⟨_, hm, (mem_segPairs (hok _ hm) (segs[i].1) _).mpr ⟨by omega, by omega, rfl⟩⟩)).1
    rw [a.starts i h]
    dsimp only at this
    omega
  constructor
  · intro x hx
    have hx' := hc _ hx
    obtain ⟨g, hg, hp⟩ := List.mem_flatMap.mp hx
    rw [mem_segPairs (hok g hg)] at hp
    obtain ⟨i, hi, rfl⟩ := List.getElem_of_mem hg
    have hf : (List.range (segCount t 12)).find? (fun i => decide (c ≤ endCode t 12 i)) = some i := by
      rw [a.count, List.find?_range_eq_some]
      refine ⟨?_, List.mem_range.mpr (by omega), fun j hj => ?_⟩
      · rw [ends i hi]; simp; omega
      · have := List.pairwise_iff_getElem.mp hord j i (by omega) hi hj
        have hl := List.length_pos_iff.mpr (hok _ (List.getElem_mem (show j < segs.length by omega))).1
        rw [ends j (by omega)]
        simp
        omega
    unfold cmapGlyph
    rw [hf]
    dsimp only
    rw [starts i hi, if_pos hp.1, if_pos (a.ranges i (by omega)), a.deltas i hi]
    dsimp only at hx'
    omega
  · intro hx
    unfold cmapGlyph
    cases hf : (List.range (segCount t 12)).find? (fun i => decide (c ≤ endCode t 12 i)) with
    | none => rfl
    | some i =>
      dsimp only
      rw [a.count, List.find?_range_eq_some] at hf
      obtain ⟨h1, h2, -⟩ := hf
      have h2 := List.mem_range.mp h2
      have h1 := of_decide_eq_true h1
      by_cases hi : i < segs.length
      · rw [starts i hi, if_neg]
        intro hle
        rw [ends i hi] at h1
        have hm : segs[i] ∈ segs := List.getElem_mem hi
        have hl := List.length_pos_iff.mpr (hok _ hm).1
        exact hx _ (List.mem_flatMap.mpr ⟨_, hm, (mem_segPairs (hok _ hm) c _).mpr ⟨hle, by omega, rfl⟩⟩)
      · have : i = segs.length := by omega
        subst this
        rw [a.startLast, a.deltaLast, a.ranges _ (Nat.le_refl _)]
        by_cases h : 0xFFFF ≤ c
        · rw [if_pos h, if_pos rfl]; omega
        · rw [if_neg h]

theorem segs_le (segs : List (Nat × List Nat)) (hok : ∀ g ∈ segs, SegOk g) : segs.length ≤ (segs.flatMap segPairs).length := by
  induction segs with
  | nil => simp
  | cons g r ih =>
    have := ih (fun x hx => hok x (by simp [hx]))
    have hl := List.length_pos_iff.mpr (hok g (by simp)).1
    rw [List.flatMap_cons, List.length_append, List.length_cons]
    have : (segPairs g).length = g.2.length := by simp [segPairs]
    omega

/-- **C43.** The character map of a subset font, made from the list of characters used with their glyph numbers (a Go map: every character occurs once): it has one table, for Windows and Unicode, in
format 4, and a reader following the format finds for every character used its glyph and for every other character glyph 0. -/
theorem C43_cmap (pairs : List (Nat × Nat)) (ns : Nat) (hk : (pairs.map (·.1)).Nodup) (hc : ∀ e ∈ pairs, e.1 ≤ 0xFFFF ∧ e.2 < 65536) (hn : pairs.length < 32767) :
    u16At (generateCMAPTable pairs ns) 0 = 0 ∧ u16At (generateCMAPTable pairs ns) 2 = 1 ∧ u16At (generateCMAPTable pairs ns) 4 = 3 ∧ u16At (generateCMAPTable pairs ns) 6 = 1 ∧
      u32At (generateCMAPTable pairs ns) 8 = 12 ∧ u16At (generateCMAPTable pairs ns) 12 = 4 ∧
      ∀ c, c ≤ 0xFFFF → (∀ g, (c, g) ∈ pairs → cmapGlyph (generateCMAPTable pairs ns) 12 c = g) ∧ ((∀ g, (c, g) ∉ pairs) → cmapGlyph (generateCMAPTable pairs ns) 12 c = 0) := by
  rw [table_words]
  have hp : (pairs.mergeSort fun a b => a.1 ≤ b.1).Perm pairs := List.mergeSort_perm _ _
  have hs : ((pairs.mergeSort fun a b => a.1 ≤ b.1).map (·.1)).Pairwise (· < ·) := by
    have h1 : (pairs.mergeSort fun a b => a.1 ≤ b.1).Pairwise fun a b => a.1 ≤ b.1 := by
      have := List.pairwise_mergeSort (le := fun a b : Nat × Nat => decide (a.1 ≤ b.1)) (by intro a b c h1 h2; simp at *; omega) (by intro a b; simp; omega) pairs
      exact this.imp (by simp)
    have h2 : ((pairs.mergeSort fun a b => a.1 ≤ b.1).map (·.1)).Nodup := (hp.map (·.1)).nodup_iff.mpr hk
    rw [List.pairwise_map]
    rw [List.nodup_iff_pairwise_ne, List.pairwise_map] at h2
    exact (h1.and h2).imp (by intro a b h; omega)
  generalize hq : (pairs.mergeSort fun a b => a.1 ≤ b.1) = sorted at *
  obtain ⟨s1, s2, s3⟩ := segs_ok sorted hs
  generalize cmapSegs sorted = segs at *
  have hl := segs_le segs s1
  rw [← s2, hp.length_eq] at hl
  have ha := arrays segs (16 + 8 * (segs.length + 1) + (ns + 1)) (by omega)
  have hg := ha.glyph s1 s3 (by rw [← s2]; exact fun e he => hc e (hp.mem_iff.mp he))
  rw [← s2] at hg
  have w : ∀ i, u16At ((cmapWords segs (16 + 8 * (segs.length + 1) + (ns + 1))).flatMap packUint16) (2 * i) = ((cmapWords segs (16 + 8 * (segs.length + 1) + (ns + 1))).getD i 0 % 65536).toNat := fun i => u16At_words _ _
  refine ⟨w 0, w 1, w 2, w 3, ?_, w 6, fun c hcc => ?_⟩
  · have e : ∀ t : Bytes, u32At t 8 = u16At t 8 * 65536 + u16At t 10 := fun t => by unfold u32At; rfl
    rw [e]
    have h4 : u16At _ 8 = 0 := w 4
    have h5 : u16At _ 10 = 12 := w 5
    rw [h4, h5]
  · obtain ⟨g1, g2⟩ := hg c hcc
    exact ⟨fun g h => g1 g (hp.mem_iff.mpr h), fun h => g2 fun x hx => h x (hp.mem_iff.mp hx)⟩

/-- The claim applies: two runs of characters, the last character of the plane, and a gap. -/
example : ∃ pairs : List (Nat × Nat), (pairs.map (·.1)).Nodup ∧ (∀ e ∈ pairs, e.1 ≤ 0xFFFF ∧ e.2 < 65536) ∧ pairs.length < 32767 ∧
    cmapGlyph (generateCMAPTable pairs 7) 12 66 = 4 ∧ cmapGlyph (generateCMAPTable pairs 7) 12 67 = 0 ∧ cmapGlyph (generateCMAPTable pairs 7) 12 0x416 = 9 ∧ cmapGlyph (generateCMAPTable pairs 7) 12 0xFFFF = 5 := by
  refine ⟨[(0x416, 9), (65, 3), (66, 4), (0xFFFF, 5)], by decide, by decide, by decide, ?_⟩
  obtain ⟨-, -, -, -, -, -, h⟩ := C43_cmap [(0x416, 9), (65, 3), (66, 4), (0xFFFF, 5)] 7 (by decide) (by decide) (by decide)
  exact ⟨(h 66 (by decide)).1 4 (by decide), (h 67 (by decide)).2 (fun g hg => by simp at hg), (h 0x416 (by decide)).1 9 (by decide), (h 0xFFFF (by decide)).1 5 (by decide)⟩

/-- **C43, refuted part.** The table's own length field is not the number of its bytes. -/
theorem C43_length_false : ∃ (pairs : List (Nat × Nat)) (ns : Nat), ns = pairs.length ∧ u16At (generateCMAPTable pairs ns) 14 + 12 < (generateCMAPTable pairs ns).length := by
  refine ⟨[(65, 1), (66, 2)], 2, rfl, ?_⟩
  unfold generateCMAPTable
  rw [List.mergeSort_of_pairwise (by decide)]
  decide +kernel

end Verif.Props
