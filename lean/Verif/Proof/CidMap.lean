import Verif.Model.CidMap
import Verif.Spec.Widths
import Verif.Proof.Frag
import Verif.Proof.Num
/-
The width array of a UTF-8 font.
-/
namespace Verif.Proof
open Verif Verif.Model Verif.Spec

/-! ### The arrays -/

/-- Values with consecutive number keys. -/
def keyed (i : Nat) : List Nat → KeyMap
  | [] => []
  | w :: l => (some i, w) :: keyed (i + 1) l

theorem keyed_append (i : Nat) (a b : List Nat) : keyed i (a ++ b) = keyed i a ++ keyed (i + a.length) b := by
  induction a generalizing i with
  | nil => simp [keyed]
  | cons w a ih => simp only [List.cons_append, keyed, ih, List.length_cons]; rw [show i + 1 + a.length = i + (a.length + 1) by omega]

theorem keyed_vals (i : Nat) (a : List Nat) : (keyed i a).map (·.2) = a := by
  induction a generalizing i with
  | nil => rfl
  | cons w a ih => simp [keyed, ih]

theorem keyed_keys (i : Nat) (a : List Nat) (k : Option Nat) : k ∈ (keyed i a).map (·.1) ↔ ∃ n, k = some n ∧ i ≤ n ∧ n < i + a.length := by
  induction a generalizing i with
  | nil => simp [keyed]
  | cons w a ih =>
    simp only [keyed, List.map_cons, List.mem_cons, ih, List.length_cons]
    constructor
    · rintro (rfl | ⟨n, rfl, h1, h2⟩)
      · exact ⟨i, rfl, by omega, by omega⟩
      · exact ⟨n, rfl, by omega, by omega⟩
    · rintro ⟨n, rfl, h1, h2⟩
      by_cases h : n = i
      · left; rw [h]
      · right; exact ⟨n, rfl, by omega, by omega⟩

theorem keyed_length (i : Nat) (a : List Nat) : (keyed i a).length = a.length := by
  rw [← List.length_map (f := (·.2)), keyed_vals]

theorem keyed_dropLast (i : Nat) (a : List Nat) : (keyed i a).dropLast = keyed i a.dropLast := by
  induction a generalizing i with
  | nil => rfl
  | cons w a ih =>
    cases a with
    | nil => rfl
    | cons v a =>
      have := ih (i + 1)
      simp only [keyed, List.dropLast_cons_cons] at this ⊢
      rw [this]

/-- `m` is the array of the widths `ws`, with or without the mark of an interval, which is not its first key. -/
def Rep (m : KeyMap) (ws : List Nat) : Bool → Prop
  | false => m = keyed 0 ws
  | true => ∃ a b, a ≠ [] ∧ ws = a ++ b ∧ m = keyed 0 a ++ (none, 1) :: keyed a.length b

theorem getIndex_none_iff (m : KeyMap) (k : Option Nat) : (m.getIndex k).isNone = true ↔ k ∉ m.map (·.1) := by
  unfold KeyMap.getIndex
  rw [Option.isNone_iff_eq_none, List.findIdx?_eq_none_iff]
  simp only [beq_eq_false_iff_ne, ne_eq, List.mem_map, not_exists, not_and]

theorem Rep.keys {m : KeyMap} {ws : List Nat} {iv : Bool} (h : Rep m ws iv) (k : Option Nat) : k ∈ m.map (·.1) ↔ (k = none ∧ iv = true) ∨ ∃ n, k = some n ∧ n < ws.length := by
  cases iv with
  | false =>
    have h : m = keyed 0 ws := h
    rw [h, keyed_keys]
    simp
  | true =>
    obtain ⟨a, b, -, rfl, rfl⟩ := h
    rw [List.map_append, List.mem_append, keyed_keys, List.map_cons, List.mem_cons, keyed_keys]
    simp only [List.length_append]
    constructor
    · rintro (⟨n, rfl, h1, h2⟩ | h | ⟨n, rfl, h1, h2⟩)
      · exact .inr ⟨n, rfl, by omega⟩
      · exact .inl ⟨h, trivial⟩
      · exact .inr ⟨n, rfl, by omega⟩
    · rintro (⟨h, -⟩ | ⟨n, rfl, h⟩)
      · exact .inr (.inl h)
      · by_cases hn : n < a.length
        · exact .inl ⟨n, rfl, by omega, by omega⟩
        · exact .inr (.inr ⟨n, rfl, by omega, by omega⟩)

theorem Rep.length {m : KeyMap} {ws : List Nat} {iv : Bool} (h : Rep m ws iv) : m.length = ws.length + (if iv then 1 else 0) := by
  cases iv with
  | false =>
    have h : m = keyed 0 ws := h
    rw [h, keyed_length]; rfl
  | true =>
    obtain ⟨a, b, -, rfl, rfl⟩ := h
    rw [List.length_append, List.length_cons, keyed_length, keyed_length, List.length_append, if_pos rfl]
    omega

theorem Rep.noInt {m : KeyMap} {ws : List Nat} {iv : Bool} (h : Rep m ws iv) : (m.getIndex none).isNone = !iv := by
  have h1 := getIndex_none_iff m none
  rw [h.keys] at h1
  cases iv with
  | false => exact h1.mpr (by simp)
  | true =>
    rw [Bool.not_true, ← Bool.not_eq_true, h1]
    simp

theorem Rep.freeKey {m : KeyMap} {ws : List Nat} {iv : Bool} (h : Rep m ws iv) : m.freeKey = ws.length := by
  unfold KeyMap.freeKey
  have hl := h.length
  have hf : ∀ n, (m.getIndex (some n)).isNone = decide (ws.length ≤ n) := by
    intro n
    have h1 := getIndex_none_iff m (some n)
    rw [h.keys] at h1
    rw [Bool.eq_iff_iff, h1, decide_eq_true_iff]
    simp
  have : (List.range (m.length + 1)).find? (fun n => (m.getIndex (some n)).isNone) = some ws.length := by
    rw [List.find?_range_eq_some]
    refine ⟨by simp [hf], ?_, fun j hj => by simp [hf, hj]⟩
    rw [List.mem_range]
    split at hl <;> omega
  rw [this]
  rfl

theorem Rep.push {m : KeyMap} {ws : List Nat} {iv : Bool} (h : Rep m ws iv) (w : Nat) : Rep (m.push w) (ws ++ [w]) iv := by
  unfold KeyMap.push
  rw [h.freeKey]
  cases iv with
  | false =>
    have h : m = keyed 0 ws := h
    show _ = keyed 0 (ws ++ [w])
    rw [h, keyed_append, Nat.zero_add]
    rfl
  | true =>
    obtain ⟨a, b, ha, rfl, rfl⟩ := h
    refine ⟨a, b ++ [w], ha, by simp, ?_⟩
    rw [keyed_append, List.append_assoc, List.cons_append, List.length_append]
    rfl

theorem rep_nil : Rep [] [] false := rfl

theorem Rep.get0 {m : KeyMap} {w : Nat} {ws : List Nat} {iv : Bool} (h : Rep m (w :: ws) iv) : m.get (some 0) = w := by
  have key : ∀ r : KeyMap, KeyMap.get ((some 0, w) :: r) (some 0) = w := by
    intro r
    unfold KeyMap.get KeyMap.getIndex
    rw [List.findIdx?_cons]
    simp
  cases iv with
  | false =>
    have h : m = keyed 0 (w :: ws) := h
    rw [h]
    exact key _
  | true =>
    obtain ⟨a, b, ha, h1, rfl⟩ := h
    cases a with
    | nil => exact absurd rfl ha
    | cons v a =>
      rw [List.cons_append, List.cons.injEq] at h1
      rw [← h1.1]
      exact key _

theorem keyed_find_none (i : Nat) (a : List Nat) : (keyed i a).findIdx? (·.1 == none) = none := by
  rw [List.findIdx?_eq_none_iff]
  intro x hx
  have : x.1 ∈ (keyed i a).map (·.1) := List.mem_map_of_mem hx
  obtain ⟨n, hn, -⟩ := (keyed_keys i a x.1).mp this
  rw [hn]
  rfl

theorem find_mark (a b : List Nat) (v : Nat) : KeyMap.getIndex (keyed 0 a ++ (none, v) :: keyed a.length b) none = some a.length := by
  unfold KeyMap.getIndex
  rw [List.findIdx?_append, keyed_find_none, List.findIdx?_cons]
  simp [keyed_length]

theorem Rep.mark {m : KeyMap} {ws : List Nat} {iv : Bool} (h : Rep m ws iv) (hw : ws ≠ []) : Rep (m.put none 1) ws true := by
  cases iv with
  | false =>
    have h : m = keyed 0 ws := h
    refine ⟨ws, [], hw, by simp, ?_⟩
    unfold KeyMap.put
    have : KeyMap.getIndex m none = none := by rw [h]; exact keyed_find_none _ _
    rw [this, h]
    rfl
  | true =>
    obtain ⟨a, b, ha, rfl, rfl⟩ := h
    refine ⟨a, b, ha, rfl, ?_⟩
    unfold KeyMap.put
    rw [find_mark]
    dsimp only
    apply List.ext_getElem?
    intro j
    rw [List.getElem?_modify]
    by_cases hj : a.length = j
    · subst hj
      rw [List.getElem?_append_right (by simp [keyed_length]), keyed_length, Nat.sub_self]
      simp
    · simp [hj]

theorem Rep.unmark {m : KeyMap} {ws : List Nat} {iv : Bool} (h : Rep m ws iv) : m.delete none = keyed 0 ws := by
  unfold KeyMap.delete
  cases iv with
  | false =>
    have h : m = keyed 0 ws := h
    have : KeyMap.getIndex m none = none := by rw [h]; exact keyed_find_none _ _
    rw [this, h]
  | true =>
    obtain ⟨a, b, ha, rfl, rfl⟩ := h
    rw [find_mark]
    dsimp only
    rw [List.eraseIdx_append_of_length_le (by simp [keyed_length]), keyed_length, Nat.sub_self, List.eraseIdx_cons_zero, keyed_append, Nat.zero_add]

theorem merge_keyed (a b : List Nat) : KeyMap.merge (keyed 0 a) (keyed 0 b) = keyed 0 (a ++ b) := by
  unfold KeyMap.merge
  have key : ∀ (b : List Nat) (i : Nat) (c : List Nat), (keyed i b).foldl (fun ans e => if e.1 = none then (if (KeyMap.getIndex (keyed 0 a) none).isNone then KeyMap.put ans none e.2 else ans) else
      KeyMap.push ans e.2) (keyed 0 c) = keyed 0 (c ++ b) := by
    intro b
    induction b with
    | nil => intro i c; simp [keyed]
    | cons w b ih =>
      intro i c
      rw [keyed, List.foldl_cons, if_neg (by simp)]
      have : KeyMap.push (keyed 0 c) w = keyed 0 (c ++ [w]) := Rep.push (iv := false) (m := keyed 0 c) (ws := c) rfl w
      rw [this, ih, List.append_assoc]
      rfl
  exact key b 0 a

/-! ### The first loop -/

/-- A run of characters from `k` with the widths `ws`, marked or not. -/
structure Seg where
  k : Nat
  ws : List Nat
  iv : Bool

/-- The characters of a run with their widths. -/
def Seg.chars (s : Seg) : List (Nat × Nat) := s.ws.zipIdx.map fun e => (s.k + e.2, e.1)

/-- The first loop has made the runs `segs` and then `last` of the characters read so far. -/
structure Runs (s : CidSt) (segs : List Seg) (last : Seg) (L : List (Nat × Nat)) : Prop where
  keys : s.keys = segs.map (·.k) ++ [last.k]
  reps : ∀ g ∈ segs, Rep (s.arr g.k) g.ws g.iv
  rep : Rep (s.arr last.k) last.ws last.iv
  all : L = segs.flatMap Seg.chars ++ last.chars
  ordered : (segs.map (·.k) ++ [last.k]).Pairwise (· < ·)
  ne : ∀ g ∈ segs, g.ws ≠ []
  id : s.rangeID = last.k
  iv : s.interval = last.iv
  cid : s.prevCid = last.k + last.ws.length - 1
  width : ∃ w, last.ws.getLast? = some w ∧ s.prevWidth = w
  same : last.iv = true → last.ws.head? = last.ws.getLast?

theorem chars_append (k : Nat) (a b : List Nat) (iv iv' iv'' : Bool) : (Seg.mk k (a ++ b) iv).chars = (Seg.mk k a iv').chars ++ (Seg.mk (k + a.length) b iv'').chars := by
  unfold Seg.chars
  dsimp only
  rw [List.zipIdx_append, List.map_append, Nat.zero_add]
  congr 1
  rw [List.zipIdx_eq_map_add, List.map_map]
  apply List.map_congr_left
  intro x _
  simp only [Function.comp_apply, Prod.mk.injEq, and_true]
  omega

theorem chars_one (k w : Nat) (iv : Bool) : (Seg.mk k [w] iv).chars = [(k, w)] := by simp [Seg.chars]

theorem setAt_self (m : Nat → KeyMap) (k : Nat) (v : KeyMap) : setAt m k v k = v := by simp [setAt]
theorem setAt_ne (m : Nat → KeyMap) (k j : Nat) (v : KeyMap) (h : j ≠ k) : setAt m k v j = m j := by simp [setAt, h]

/-- All keys of the runs before the last are smaller. -/
theorem Runs.lt {s : CidSt} {segs : List Seg} {last : Seg} {L : List (Nat × Nat)} (h : Runs s segs last L) : ∀ g ∈ segs, g.k < last.k := by
  intro g hg
  have := (List.pairwise_append.mp h.ordered).2.2
  exact this g.k (List.mem_map_of_mem hg) last.k (by simp)

theorem Runs.ne' {s : CidSt} {segs : List Seg} {last : Seg} {L : List (Nat × Nat)} (h : Runs s segs last L) : last.ws ≠ [] := by
  obtain ⟨w, hw, -⟩ := h.width
  intro e
  rw [e] at hw
  cases hw

/-- A new run starts. -/
theorem Runs.fresh {s s' : CidSt} {segs : List Seg} {last : Seg} {L : List (Nat × Nat)} (h : Runs s segs last L) (c w : Nat) (hc : last.k < c)
    (hs : s' = { rangeID := c, arr := setAt s.arr c (KeyMap.push [] w), keys := s.keys ++ [c], interval := false, prevCid := c, prevWidth := w }) :
    Runs s' (segs ++ [last]) ⟨c, [w], false⟩ (L ++ [(c, w)]) := by
  subst hs
  have hlt := h.lt
  refine ⟨by simp [h.keys], ?_, ?_, ?_, ?_, ?_, rfl, rfl, by simp, ⟨w, rfl, rfl⟩, by simp⟩
  · intro g hg
    have hgc : g.k ≠ c := by
      rcases List.mem_append.mp hg with hg | hg
      · have := hlt g hg; omega
      · rw [List.mem_singleton.mp hg]; omega
    dsimp only
    rw [setAt_ne _ _ _ _ hgc]
    rcases List.mem_append.mp hg with hg | hg
    · exact h.reps g hg
    · rw [List.mem_singleton.mp hg]; exact h.rep
  · dsimp only
    rw [setAt_self]
    exact Rep.push rep_nil w
  · rw [List.flatMap_append, chars_one, h.all]
    simp
  · rw [List.map_append, List.map_singleton, List.pairwise_append]
    refine ⟨h.ordered, by simp, fun a ha b hb => ?_⟩
    rw [List.mem_singleton.mp hb]
    show a < c
    rcases List.mem_append.mp ha with ha | ha
    · obtain ⟨g, hg, rfl⟩ := List.mem_map.mp ha
      have := hlt g hg
      omega
    · rw [List.mem_singleton.mp ha]; exact hc
  · intro g hg
    rcases List.mem_append.mp hg with hg | hg
    · exact h.ne g hg
    · rw [List.mem_singleton.mp hg]; exact h.ne'

/-- The last run goes on. -/
theorem Runs.longer {s s' : CidSt} {segs : List Seg} {last : Seg} {L : List (Nat × Nat)} (h : Runs s segs last L) (c w : Nat) (m : KeyMap) (iv : Bool)
    (hc : (c : Int) = s.prevCid + 1) (hm : Rep m (last.ws ++ [w]) iv) (hiv : iv = true → last.ws.head? = some w)
    (hs : s' = { rangeID := last.k, arr := m', keys := s.keys, interval := iv, prevCid := c, prevWidth := w }) (hm' : m' last.k = m) (hne : ∀ j, j ≠ last.k → m' j = s.arr j) :
    Runs s' segs ⟨last.k, last.ws ++ [w], iv⟩ (L ++ [(c, w)]) := by
  subst hs
  have hlt := h.lt
  have hk : c = last.k + last.ws.length := by have := h.cid; omega
  refine ⟨h.keys, ?_, ?_, ?_, h.ordered, h.ne, rfl, rfl, ?_, ⟨w, by simp, rfl⟩, ?_⟩
  · intro g hg
    have := hlt g hg
    dsimp only
    rw [hne _ (by omega)]
    exact h.reps g hg
  · dsimp only
    rw [hm']
    exact hm
  · rw [chars_append last.k last.ws [w] iv last.iv false, chars_one, ← List.append_assoc, h.all, hk]
  · simp only [List.length_append, List.length_singleton]
    omega
  · intro e
    rw [List.head?_append, hiv e]
    simp

/-- The state when the last character of the last run and the next one become a run. -/
def splitSt (s : CidSt) (p : Int) (w : Nat) : CidSt where
  rangeID := s.prevCid.toNat
  arr := setAt (setAt (setAt s.arr s.rangeID (s.arr s.rangeID).dropLast) s.prevCid.toNat ((KeyMap.push [] w).push w)) s.prevCid.toNat (((KeyMap.push [] w).push w).put none 1)
  keys := s.keys ++ [s.prevCid.toNat]
  interval := true
  prevCid := p
  prevWidth := w

theorem Runs.split {s : CidSt} {segs : List Seg} {last : Seg} {L : List (Nat × Nat)} (h : Runs s segs last L) (w : Nat) (a : List Nat) (hw : last.ws = a ++ [w]) (ha : a ≠ [])
    (hiv : last.iv = false) : Runs (splitSt s (s.prevCid + 1) w) (segs ++ [⟨last.k, a, false⟩]) ⟨last.k + a.length, [w, w], true⟩ (L ++ [(last.k + a.length + 1, w)]) := by
  unfold splitSt
  have hlt := h.lt
  have hlen : 0 < a.length := List.length_pos_iff.mpr ha
  have hp : s.prevCid = (last.k + a.length : Nat) := by
    have := h.cid
    rw [hw, List.length_append, List.length_singleton] at this
    omega
  rw [hp, Int.toNat_natCast]
  have hne : ∀ g ∈ segs, g.k ≠ last.k + a.length := fun g hg => by have := hlt g hg; omega
  have hne' : ∀ g ∈ segs, g.k ≠ last.k := fun g hg => by have := hlt g hg; omega
  refine ⟨by simp [h.keys], ?_, ?_, ?_, ?_, ?_, rfl, rfl, ?_, ⟨w, rfl, rfl⟩, by simp⟩
  · intro g hg
    dsimp only
    rcases List.mem_append.mp hg with hg | hg
    · rw [setAt_ne _ _ _ _ (hne g hg), setAt_ne _ _ _ _ (hne g hg), h.id, setAt_ne _ _ _ _ (hne' g hg)]
      exact h.reps g hg
    · rw [List.mem_singleton.mp hg]
      dsimp only
      rw [setAt_ne _ _ _ _ (by omega), setAt_ne _ _ _ _ (by omega), h.id, setAt_self]
      have hr := h.rep
      rw [hiv, hw] at hr
      have hr : s.arr last.k = keyed 0 (a ++ [w]) := hr
      show _ = keyed 0 a
      rw [hr, keyed_dropLast, List.dropLast_concat]
  · dsimp only
    rw [setAt_self]
    exact Rep.mark (iv := false) (Rep.push (Rep.push rep_nil w) w) (by simp)
  · rw [List.flatMap_append, h.all, show last = ⟨last.k, a ++ [w], last.iv⟩ by rw [← hw], chars_append last.k a [w] last.iv false false]
    rw [show [w, w] = [w] ++ [w] from rfl, chars_append (last.k + a.length) [w] [w] true false false]
    simp [chars_one]
  · rw [List.map_append, List.map_singleton, List.pairwise_append]
    refine ⟨h.ordered, by simp, fun x hx b hb => ?_⟩
    rw [List.mem_singleton.mp hb]
    show x < last.k + a.length
    rcases List.mem_append.mp hx with hx | hx
    · obtain ⟨g, hg, rfl⟩ := List.mem_map.mp hx
      have := hlt g hg
      omega
    · rw [List.mem_singleton.mp hx]
      dsimp only
      omega
  · intro g hg
    rcases List.mem_append.mp hg with hg | hg
    · exact h.ne g hg
    · rw [List.mem_singleton.mp hg]; exact ha
  · simp only [List.length_cons, List.length_nil]
    omega

theorem Runs.step {s : CidSt} {segs : List Seg} {last : Seg} {L : List (Nat × Nat)} (h : Runs s segs last L) (c w : Nat) (hc : s.prevCid < c) :
    ∃ segs' last', Runs (cidStep s (c, w)) segs' last' (L ++ [(c, w)]) := by
  have hlast : 0 < last.ws.length := List.length_pos_iff.mpr h.ne'
  have hcid := h.cid
  have hk : last.k < c := by omega
  obtain ⟨v, hv, hpw⟩ := h.width
  by_cases h1 : (c : Int) = s.prevCid + 1
  · by_cases h2 : (w : Int) = s.prevWidth
    · have hvw : v = w := by omega
      subst hvw
      obtain ⟨x, l, hx⟩ := List.exists_cons_of_ne_nil h.ne'
      have h0 : (s.arr s.rangeID).get (some 0) = x := by
        have := h.rep
        rw [hx] at this
        rw [h.id]
        exact this.get0
      by_cases h3 : v = x
      · refine ⟨segs, ⟨last.k, last.ws ++ [v], true⟩, h.longer c v ((KeyMap.push (s.arr last.k) v).put none 1) true h1 ((h.rep.push v).mark (by simp)) (by rw [hx, h3]; simp)
          (m' := setAt (setAt s.arr last.k (KeyMap.push (s.arr last.k) v)) last.k ((KeyMap.push (s.arr last.k) v).put none 1)) ?_ (setAt_self _ _ _) ?_⟩
        · unfold cidStep
          dsimp only
          rw [if_pos h1, if_pos h2, if_pos (h0.trans h3.symm).symm]
          simp only [h.id, setAt_self]
        · intro j hj
          rw [setAt_ne _ _ _ _ hj, setAt_ne _ _ _ _ hj]
      · have hl : last.ws = last.ws.dropLast ++ [v] := by
          rw [List.getLast?_eq_some_getLast h.ne', Option.some.injEq] at hv
          rw [← hv, List.dropLast_concat_getLast]
        have hiv : last.iv = false := by
          rw [← Bool.not_eq_true]
          intro e
          have := h.same e
          rw [hv, hx] at this
          simp only [List.head?_cons, Option.some.injEq] at this
          exact h3 this.symm
        have hd : last.ws.dropLast ≠ [] := by
          intro e
          rw [e, hx] at hl
          simp only [List.nil_append, List.cons.injEq] at hl
          exact h3 hl.1.symm
        have hs := h.split v _ hl hd hiv
        have hlen : (last.ws.dropLast.length : Nat) + 1 = last.ws.length := by rw [List.length_dropLast]; omega
        have hce : last.k + last.ws.dropLast.length + 1 = c := by omega
        rw [hce] at hs
        have e : cidStep s (c, v) = splitSt s (s.prevCid + 1) v := by
          unfold cidStep splitSt
          dsimp only
          rw [if_pos h1, if_pos h2, if_neg (by rw [h0]; exact h3)]
          have hw' : s.prevWidth.toNat = v := by omega
          simp only [h1, hw', setAt_self]
        rw [e]
        exact ⟨_, _, hs⟩
    · cases hi : s.interval with
      | true =>
        refine ⟨_, _, h.fresh c w hk ?_⟩
        unfold cidStep
        dsimp only
        rw [if_pos h1, if_neg h2, hi]
        rfl
      | false =>
        have hli : last.iv = false := h.iv.symm.trans hi
        have hr := h.rep
        rw [hli] at hr
        refine ⟨segs, _, h.longer c w (KeyMap.push (s.arr last.k) w) false h1 (hr.push w) (by simp) (m' := setAt s.arr last.k (KeyMap.push (s.arr last.k) w)) ?_ (setAt_self _ _ _) ?_⟩
        · unfold cidStep
          dsimp only
          rw [if_pos h1, if_neg h2, hi]
          simp only [h.id, Bool.false_eq_true, if_false]
        · intro j hj
          rw [setAt_ne _ _ _ _ hj]
  · refine ⟨_, _, h.fresh c w hk ?_⟩
    unfold cidStep
    dsimp only
    rw [if_neg h1]

theorem cidStep_prev (s : CidSt) (e : Nat × Nat) : (cidStep s e).prevCid = e.1 := rfl

theorem runs_all (l : List (Nat × Nat)) (e : Nat × Nat) (hl : ((e :: l).map (·.1)).Pairwise (· < ·)) :
    ∃ segs last, Runs ((e :: l).foldl cidStep {}) segs last (e :: l) := by
  have key : ∀ (l : List (Nat × Nat)) (s : CidSt) (segs : List Seg) (last : Seg) (L : List (Nat × Nat)), Runs s segs last L → (∀ x ∈ l, s.prevCid < x.1) → (l.map (·.1)).Pairwise (· < ·) →
      ∃ segs' last', Runs (l.foldl cidStep s) segs' last' (L ++ l) := by
    intro l
    induction l with
    | nil => intro s segs last L h _ _; exact ⟨segs, last, by simpa using h⟩
    | cons x l ih =>
      intro s segs last L h hlt hp
      obtain ⟨segs', last', h'⟩ := h.step x.1 x.2 (hlt x (by simp))
      rw [List.map_cons, List.pairwise_cons] at hp
      obtain ⟨a, b, hab⟩ := ih _ _ _ _ h' (fun y hy => by rw [cidStep_prev]; exact Int.ofNat_lt.mpr (hp.1 y.1 (List.mem_map_of_mem hy))) hp.2
      exact ⟨a, b, by simpa using hab⟩
  rw [List.map_cons, List.pairwise_cons] at hl
  have h0 : Runs (cidStep {} e) [] ⟨e.1, [e.2], false⟩ [e] := by
    have hne : ¬ ((e.1 : Int) = ({} : CidSt).prevCid + 1) := by
      show ¬ ((e.1 : Int) = -2 + 1)
      omega
    have hs : cidStep {} e = { rangeID := e.1, arr := setAt (fun _ => []) e.1 (KeyMap.push [] e.2), keys := [e.1], interval := false, prevCid := e.1, prevWidth := e.2 } := by
      unfold cidStep
      dsimp only
      rw [if_neg hne]
      rfl
    rw [hs]
    refine ⟨rfl, by simp, ?_, ?_, by simp, by simp, rfl, rfl, by simp, ⟨e.2, rfl, rfl⟩, by simp⟩
    · dsimp only
      rw [setAt_self]
      exact Rep.push rep_nil e.2
    · rw [chars_one]; rfl
  obtain ⟨a, b, hab⟩ := key l _ _ _ _ h0 (fun y hy => by rw [cidStep_prev]; exact Int.ofNat_lt.mpr (hl.1 y.1 (List.mem_map_of_mem hy))) hl.2
  exact ⟨a, b, by simpa using hab⟩

/-! ### The second loop -/

theorem removeKey_at (a b : List Nat) (k : Nat) (hb : k ∉ b) (ha : k ∉ a) : removeKey (a ++ k :: b) k = a ++ b := by
  unfold removeKey
  have skip : ∀ (l : List (Nat × Nat)) (n : Nat), (∀ e ∈ l, e.1 ≠ k) → l.foldl (fun n e => if e.1 = k then e.2 else n) n = n := by
    intro l
    induction l with
    | nil => intro n _; rfl
    | cons e l ih =>
      intro n h
      rw [List.foldl_cons, if_neg (h e (by simp))]
      exact ih n fun x hx => h x (by simp [hx])
  have hz : ∀ (l : List Nat) (n : Nat), k ∉ l → ∀ e ∈ l.zipIdx n, e.1 ≠ k := by
    intro l n h e he heq
    have := List.mem_zipIdx he
    apply h
    rw [← heq, this.2.2]
    exact List.getElem_mem _
  dsimp only
  rw [List.zipIdx_append, List.zipIdx_cons, List.foldl_append, skip _ _ (hz a 0 ha), List.foldl_cons, if_pos rfl, skip _ _ (hz b _ hb)]
  rw [List.eraseIdx_append_of_length_le (by simp)]
  simp

/-- The second loop has made the runs `done` and the runs `rest` are left. -/
structure Merged (s : MergeSt) (dones rest : List Seg) (L : List (Nat × Nat)) : Prop where
  keys : s.keys = dones.map (·.k) ++ rest.map (·.k)
  reps : ∀ g ∈ dones, s.arr g.k = keyed 0 g.ws
  rests : ∀ g ∈ rest, Rep (s.arr g.k) g.ws g.iv
  ordered : (dones.map (·.k) ++ rest.map (·.k)).Pairwise (· < ·)
  ne : ∀ g ∈ dones, g.ws ≠ []
  ne' : ∀ g ∈ rest, g.ws ≠ []
  none : dones = [] → s.nextKey = none
  next : ∀ d ∈ dones.getLast?, s.previousKey = d.k ∧ s.nextKey = some (d.k + d.ws.length)
  all : L = dones.flatMap Seg.chars ++ rest.flatMap Seg.chars

theorem merge_all (rest : List Seg) : ∀ (s : MergeSt) (dones : List Seg) (L : List (Nat × Nat)), Merged s dones rest L →
    ∃ segs, Merged (mergeLoop s dones.length) segs [] L := by
  induction rest with
  | nil =>
    intro s dones L h
    refine ⟨dones, ?_⟩
    rw [mergeLoop, dif_neg (by rw [h.keys]; simp)]
    exact h
  | cons r rest ih =>
    intro s dones L h
    have hlen : dones.length < s.keys.length := by rw [h.keys]; simp
    have hkey : s.keys.getD dones.length 0 = r.k := by
      rw [h.keys, List.getD_eq_getElem?_getD, List.getElem?_append_right (by simp)]
      simp
    have hr := h.rests r (by simp)
    have hint := hr.noInt
    have hsome : (KeyMap.getIndex (s.arr r.k) none).isSome = r.iv := by
      rw [← Option.not_isNone, hint, Bool.not_not]
    have hcws := hr.length
    have hend : r.k + (s.arr r.k).length - (if r.iv then 1 else 0) = r.k + r.ws.length := by
      rw [hcws]; omega
    have hord := h.ordered
    rw [List.map_cons, List.pairwise_append, List.pairwise_cons] at hord
    obtain ⟨ho1, ⟨ho2, ho3⟩, ho4⟩ := hord
    have hd : ∀ g ∈ dones, g.k < r.k := fun g hg => ho4 g.k (List.mem_map_of_mem hg) r.k (by simp)
    have hre : ∀ g ∈ rest, r.k < g.k := fun g hg => ho2 g.k (List.mem_map_of_mem hg)
    rw [mergeLoop, dif_pos hlen]
    dsimp only
    rw [hkey, hsome, hend, hr.unmark]
    split
    · rename_i hj
      obtain ⟨hj, -⟩ := hj
      rcases List.eq_nil_or_concat dones with e | ⟨ds, d, e⟩
      · rw [h.none e] at hj; cases hj
      rw [List.concat_eq_append] at e
      subst e
      obtain ⟨hp, hn⟩ := h.next d (by simp)
      rw [hn, Option.some.injEq] at hj
      have hdr : d.k < r.k := hd d (by simp)
      have hds : ∀ g ∈ ds, g.k < d.k := by
        intro g hg
        rw [List.map_append, List.pairwise_append] at ho1
        exact ho1.2.2 g.k (List.mem_map_of_mem hg) d.k (by simp)
      have hk : removeKey s.keys r.k = (ds ++ [d]).map (·.k) ++ rest.map (·.k) := by
        rw [h.keys, List.map_cons]
        apply removeKey_at
        · intro hm
          exact absurd (ho2 _ hm) (by omega)
        · intro hm
          obtain ⟨g, hg, e⟩ := List.mem_map.mp hm
          have := hd g hg
          omega
      rw [hp, setAt_ne _ _ _ _ (show d.k ≠ r.k by omega), h.reps d (by simp), setAt_self, merge_keyed, hk]
      have hl : (ds ++ [d]).length = (ds ++ [Seg.mk d.k (d.ws ++ r.ws) false]).length := by simp
      rw [hl]
      apply ih
      refine ⟨by simp, ?_, ?_, ?_, ?_, fun g hg => h.ne' g (by simp [hg]), by simp, ?_, ?_⟩
      · intro g hg
        dsimp only
        rcases List.mem_append.mp hg with hg | hg
        · have := hds g hg
          rw [setAt_ne _ _ _ _ (by omega), setAt_ne _ _ _ _ (by omega)]
          exact h.reps g (by simp [hg])
        · rw [List.mem_singleton.mp hg]
          exact setAt_self _ _ _
      · intro g hg
        have := hre g hg
        dsimp only
        rw [setAt_ne _ _ _ _ (by omega), setAt_ne _ _ _ _ (by omega)]
        exact h.rests g (by simp [hg])
      · have e : (ds ++ [Seg.mk d.k (d.ws ++ r.ws) false]).map (·.k) = (ds ++ [d]).map (·.k) := by simp
        rw [e, List.pairwise_append]
        exact ⟨ho1, ho3, fun a ha b hb => ho4 a ha b (by simp [hb])⟩
      · intro g hg
        rcases List.mem_append.mp hg with hg | hg
        · exact h.ne g (by simp [hg])
        · rw [List.mem_singleton.mp hg]
          intro e
          exact h.ne d (by simp) (List.append_eq_nil_iff.mp e).1
      · intro x hx
        simp only [List.getLast?_append, List.getLast?_singleton, Option.some_or, Option.mem_def, Option.some.injEq] at hx
        subst hx
        refine ⟨rfl, ?_⟩
        dsimp only
        rw [List.length_append, ← hj]
        congr 1
        omega
      · rw [h.all, List.flatMap_append, List.flatMap_append, List.flatMap_cons]
        simp only [List.flatMap_singleton]
        rw [chars_append d.k d.ws r.ws false d.iv r.iv, hj]
        simp
    · have hl : dones.length + 1 = (dones ++ [r]).length := by simp
      rw [hl]
      apply ih
      refine ⟨by rw [h.keys]; simp, ?_, ?_, ?_, ?_, fun g hg => h.ne' g (by simp [hg]), by simp, ?_, ?_⟩
      · intro g hg
        dsimp only
        rcases List.mem_append.mp hg with hg | hg
        · have := hd g hg
          rw [setAt_ne _ _ _ _ (by omega)]
          exact h.reps g hg
        · rw [List.mem_singleton.mp hg]
          exact setAt_self _ _ _
      · intro g hg
        have := hre g hg
        dsimp only
        rw [setAt_ne _ _ _ _ (by omega)]
        exact h.rests g (by simp [hg])
      · have := h.ordered
        simpa using this
      · intro g hg
        rcases List.mem_append.mp hg with hg | hg
        · exact h.ne g hg
        · rw [List.mem_singleton.mp hg]
          exact h.ne' r (by simp)
      · intro x hx
        simp only [List.getLast?_append, List.getLast?_singleton, Option.some_or, Option.mem_def, Option.some.injEq] at hx
        subst hx
        exact ⟨rfl, rfl⟩
      · rw [h.all, List.flatMap_cons, List.flatMap_append]
        simp

/-! ### The line -/

theorem intDec_cast (n : Nat) : intDec (n : Int) = natDec n := by
  unfold intDec
  rw [if_neg (by omega)]
  simp

/-- The tokens of a piece of text that white space follows. -/
def Toks (b : Bytes) (ts : List Tok) : Prop := ∀ c, isWs c = true → lexFrom .ws (b ++ [c]) = (.ws, ts)

theorem Toks.then {a b : Bytes} {i j : List Tok} (ha : Toks a i) (hb : Toks b j) (c : UInt8) (hc : isWs c = true) : Toks (a ++ c :: b) (i ++ j) := by
  intro d hd
  rw [show a ++ c :: b ++ [d] = (a ++ [c]) ++ (b ++ [d]) by simp, lexFrom_append, ha c hc, hb d hd]

theorem Toks.line {a : Bytes} {i : List Tok} (ha : Toks a i) : Toks (a ++ [10]) i := by
  intro d hd
  rw [lexFrom_append, ha 10 (by decide)]
  simp [lexFrom, lexStep, startTok, hd]

theorem toks_keyed (n : Nat) : Toks (natDec n) [.word (natDec n)] := fun c hc => lex_word_end _ (natDec_spec n).1 (natDec_regular n) c hc

theorem wordNat_natDec (n : Nat) : wordNat (natDec n) = some n := by
  unfold wordNat
  rw [readNat_natDec_nil]

theorem toks_implode (ws : List Nat) (h : ws ≠ []) : Toks (implode (B " ") ws) (ws.map fun w => .word (natDec w)) := by
  induction ws with
  | nil => exact absurd rfl h
  | cons w ws ih =>
    cases ws with
    | nil => exact toks_keyed w
    | cons v ws =>
      have := (toks_keyed w).then (ih (by simp)) 32 (by decide)
      rw [implode, List.append_assoc]
      · exact this
      · simp

theorem eraseDups_one (w : Nat) (l : List Nat) : (w :: l).eraseDups.length = 1 ↔ ∀ x ∈ l, x = w := by
  rw [List.eraseDups_cons, List.length_cons]
  constructor
  · intro h x hx
    have h0 : (l.filter fun b => !b == w).eraseDups = [] := List.length_eq_zero_iff.mp (by omega)
    have h1 : l.filter (fun b => !b == w) = [] := by
      cases e : l.filter (fun b => !b == w) with
      | nil => rfl
      | cons y ys => rw [e, List.eraseDups_cons] at h0; cases h0
    rw [List.filter_eq_nil_iff] at h1
    have := h1 x hx
    simpa using this
  · intro h
    have h1 : l.filter (fun b => !b == w) = [] := by
      rw [List.filter_eq_nil_iff]
      intro x hx
      simp [h x hx]
    rw [h1]
    rfl

/-- The tokens of one entry and what they mean. -/
theorem entry_reads (k : Nat) (ws : List Nat) (h : ws ≠ []) :
    ∃ b ts, cidEntry k (keyed 0 ws) = 32 :: b ∧ Toks b ts ∧ ∀ r out, readWidths .start r = some out → readWidths .start (ts ++ r) = some ((Seg.mk k ws false).chars ++ out) := by
  unfold cidEntry
  rw [keyed_vals, keyed_length]
  obtain ⟨w, l, rfl⟩ := List.exists_cons_of_ne_nil h
  by_cases hd : ∀ x ∈ l, x = w
  · rw [if_pos ((eraseDups_one w l).mpr hd)]
    have h0 : KeyMap.get (keyed 0 (w :: l)) (some 0) = w := Rep.get0 (iv := false) (m := keyed 0 (w :: l)) (ws := l) rfl
    rw [h0]
    have e : sprintf " %d %d %d" [.d k, .d (k + (w :: l).length - 1 : Nat), .d w] = B " " ++ (intDec k ++ (B " " ++ (intDec (k + (w :: l).length - 1 : Nat) ++ (B " " ++ (intDec w ++ []))))) :=
      sprintfB_of_render _ _ _ rfl
    rw [e]
    refine ⟨natDec k ++ 32 :: (natDec (k + (w :: l).length - 1) ++ 32 :: natDec w), _, ?_, (toks_keyed _).then ((toks_keyed _).then (toks_keyed _) 32 (by decide)) 32 (by decide), ?_⟩
    · rw [intDec_cast, intDec_cast, intDec_cast, List.append_nil]
      rfl
    · intro r out hr
      simp only [List.cons_append, List.nil_append, readWidths, wordNat_natDec, Option.bind_some, hr, Option.map_some, Option.some.injEq]
      congr 1
      unfold Seg.chars
      dsimp only
      apply List.ext_getElem
      · simp
        omega
      intro i h1 h2
      simp only [List.getElem_map, List.getElem_range', List.getElem_zipIdx, Nat.one_mul, Nat.zero_add, Prod.mk.injEq, true_and]
      cases i with
      | zero => rfl
      | succ i =>
        rw [List.getElem_cons_succ]
        exact (hd _ (List.getElem_mem _)).symm
  · rw [if_neg (fun e => hd ((eraseDups_one w l).mp e))]
    have e : sprintf " %d [ %s ]\n" [.d k, .s (implode (B " ") (w :: l))] = B " " ++ (intDec k ++ (B " [ " ++ (implode (B " ") (w :: l) ++ B " ]\n"))) :=
      sprintfB_of_render _ _ _ rfl
    rw [e]
    have t1 : Toks [0x5B] [.punct 0x5B] := fun c hc => by simp [lexFrom, lexStep, startTok, hc, isDelim, show isWs 0x5B = false by decide]
    have t2 : Toks [0x5D] [.punct 0x5D] := fun c hc => by simp [lexFrom, lexStep, startTok, hc, isDelim, show isWs 0x5D = false by decide]
    refine ⟨(natDec k ++ 32 :: ([0x5B] ++ 32 :: (implode (B " ") (w :: l) ++ 32 :: [0x5D]))) ++ [10], _, ?_,
      ((toks_keyed k).then (t1.then ((toks_implode (w :: l) (by simp)).then t2 32 (by decide)) 32 (by decide)) 32 (by decide)).line, ?_⟩
    · rw [intDec_cast]
      simp [B]
    · intro r out hr
      have key : ∀ (ws : List Nat) (c : Nat), readWidths (.list c) (ws.map (fun w => .word (natDec w)) ++ (.punct 0x5D :: r)) = some (ws.zipIdx.map (fun e => (c + e.2, e.1)) ++ out) := by
        intro ws
        induction ws with
        | nil => intro c; simpa [readWidths] using hr
        | cons v ws ih =>
          intro c
          simp only [List.map_cons, List.cons_append, readWidths, wordNat_natDec, Option.bind_some, ih, Option.map_some, List.zipIdx_cons, Nat.add_zero, Option.some.injEq, List.cons.injEq, true_and]
          congr 1
          rw [List.zipIdx_eq_map_add (i := 0 + 1), List.map_map]
          apply List.map_congr_left
          intro x _
          simp only [Function.comp_apply, Prod.mk.injEq, and_true]
          omega
      have := key (w :: l) k
      simp only [List.cons_append, List.nil_append, List.append_assoc, readWidths, wordNat_natDec, Option.bind_some, this]
      rfl

theorem body_reads (segs : List Seg) (arr : Nat → KeyMap) (hr : ∀ g ∈ segs, arr g.k = keyed 0 g.ws) (hne : ∀ g ∈ segs, g.ws ≠ []) :
    ∃ ts, (∀ a i, Toks a i → Toks (a ++ (segs.map (·.k)).flatMap fun k => cidEntry k (arr k)) (i ++ ts)) ∧ readWidths .start ts = some (segs.flatMap Seg.chars) := by
  induction segs with
  | nil => exact ⟨[], fun a i h => by simpa using h, rfl⟩
  | cons g segs ih =>
    obtain ⟨ts, h1, h2⟩ := ih (fun x hx => hr x (by simp [hx])) (fun x hx => hne x (by simp [hx]))
    obtain ⟨b, t, h3, h4, h5⟩ := entry_reads g.k g.ws (hne g (by simp))
    refine ⟨t ++ ts, fun a i h => ?_, ?_⟩
    · rw [List.map_cons, List.flatMap_cons, hr g (by simp), h3, ← List.append_assoc, ← List.append_assoc]
      exact h1 _ _ (h.then h4 32 (by decide))
    · rw [h5 _ _ h2]
      rfl

theorem Toks.lex {b : Bytes} {ts : List Tok} (h : Toks b ts) : Spec.lex (b ++ [10]) = ts := by
  unfold Spec.lex
  rw [h 10 (by decide)]
  simp [flushTok]

theorem chars_ordered (cw : List Nat) (used : Nat → Bool) (lastRune : Nat) : ((cidChars cw used lastRune).map (·.1)).Pairwise (· < ·) := by
  unfold cidChars
  rw [List.pairwise_map]
  have : (List.range' 1 lastRune).Pairwise (· < ·) := List.pairwise_lt_range'
  refine this.filterMap _ ?_
  intro a a' h b hb b' hb'
  dsimp only at hb hb'
  split at hb
  · cases hb
  split at hb
  · cases hb
  split at hb'
  · cases hb'
  split at hb'
  · cases hb'
  cases hb
  cases hb'
  exact h

theorem widths_entry (cw : List Nat) (used : Nat → Bool) (lastRune : Nat) : WidthEntry (cidFontMap cw used lastRune ++ [10]) (cidChars cw used lastRune) := by
  have hord := chars_ordered cw used lastRune
  unfold cidFontMap
  generalize cidChars cw used lastRune = L at *
  have t0 : Toks (B "/W [") [.name (B "W"), .punct 0x5B] := fun c hc => by
    rw [show B "/W [" ++ [c] = (B "/W " ++ [0x5B]) ++ [c] from by simp [B], lexFrom_append, show lexFrom .ws (B "/W " ++ [0x5B]) = (.ws, [.name (B "W"), .punct 0x5B]) by decide]
    simp [lexFrom, lexStep, startTok, hc]
  have t2 : Toks [0x5D] [.punct 0x5D] := fun c hc => by simp [lexFrom, lexStep, startTok, hc, isDelim, show isWs 0x5D = false by decide]
  have fin : ∀ s : MergeSt, (∃ segs, Merged s segs [] L) → WidthEntry (B "/W [" ++ s.keys.flatMap (fun k => cidEntry k (s.arr k)) ++ B " ]" ++ [10]) L := by
    rintro s ⟨segs, h⟩
    obtain ⟨ts, h1, h2⟩ := body_reads segs s.arr h.reps h.ne
    have hk : s.keys = segs.map (·.k) := by simpa using h.keys
    have hL : L = segs.flatMap Seg.chars := by simpa using h.all
    refine ⟨ts, ?_, by rw [h2, hL]⟩
    rw [hk]
    exact ((h1 _ _ t0).then t2 32 (by decide)).lex
  dsimp only
  apply fin
  cases L with
  | nil =>
    refine ⟨[], ?_⟩
    rw [mergeLoop, dif_neg (by simp)]
    exact ⟨rfl, by simp, by simp, by simp, by simp, by simp, fun _ => rfl, by simp, rfl⟩
  | cons e l =>
    obtain ⟨segs, last, h⟩ := runs_all l e hord
    generalize (e :: l).foldl cidStep {} = s at h ⊢
    refine merge_all (segs ++ [last]) _ [] (e :: l) ?_
    refine ⟨by simp [h.keys], by simp, ?_, by simpa using h.ordered, by simp, ?_, fun _ => rfl, by simp, by simpa using h.all⟩
    · intro g hg
      rcases List.mem_append.mp hg with hg | hg
      · exact h.reps g hg
      · rw [List.mem_singleton.mp hg]; exact h.rep
    · intro g hg
      rcases List.mem_append.mp hg with hg | hg
      · exact h.ne g hg
      · rw [List.mem_singleton.mp hg]; exact h.ne'

end Verif.Proof
