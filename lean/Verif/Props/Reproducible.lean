import Verif.Proof.Reorder
import Verif.Props.Alias
import Verif.Props.Images
/-
C45: with catalog sorting on, the same calls give the same file.

Go goes through a map in an order that is different in every run. In the model that order is a parameter, `E.ord`: a function that may put the keys of a map into any order, at every
place of the program independently. `E.reordered o h` is the same surroundings (same clock, same digests, same fonts) with another such order.
-/
namespace Verif.Props
open Verif Verif.Model Verif.Spec Verif.Proof

/-- What a drawn document must be like for its file not to depend on the order in which Go goes through its maps. -/
structure Settled (f : Fpdf) : Prop where
  /-- catalog sorting is on -/
  sort : f.m.catalogSort = true
  /-- at most one alias, or aliases whose replacements do not get into each other's way -/
  aliases : (aliasesOf f).length ≤ 1 ∨ ∃ x y : UInt8, x ≠ y ∧ ((aliasesOf f).map (·.1)).Nodup ∧ (∀ p ∈ aliasesOf f, Bracketed x y p.1) ∧
    ∀ p ∈ aliasesOf f, Harmless x y ((aliasesOf f).map (·.1)) p.2
  /-- at most one page box for each page -/
  boxes : ∀ n, ((lookup n f.p.pageBoxes).getD []).length ≤ 1
  /-- at most one spot colour -/
  spots : f.r.spotColorMap.length ≤ 1
  /-- fonts registered under different names are different fonts -/
  fonts : ∀ a b x y, lookup a f.t.fonts = some x → lookup b f.t.fonts = some y → x.i = y.i → a = b
  /-- images of the same width are the same image -/
  images : ∀ a b i j, imageOf f a = some i → imageOf f b = some j → i.w = j.w → { i with n := 0 } = { j with n := 0 }
  /-- templates show at most one image each -/
  templates : ∀ t ∈ allTemplates f.r.templates, t.images.length ≤ 1

/-- **C45** Go's order of going through maps has no part in drawing: every call other than `Close` and `Output` gives the same document whatever that order is. -/
theorem C45_drawing {E : Ext} (o : Nat → List Bytes → List Bytes) (h : ∀ s l, (o s l).Perm l) (cb : Cb) (f : Fpdf) (op : Op) (h1 : op ≠ .close) (h2 : ∀ b, op ≠ .output b) :
    f.exec (E.reordered o h) cb op = f.exec E cb op := exec_re cb f op h1 h2

theorem drawn_re {E : Ext} (o : Nat → List Bytes → List Bytes) (h : ∀ s l, (o s l).Perm l) (cb : Cb) (f : Fpdf) : drawn (E.reordered o h) cb f = drawn E cb f := by
  unfold drawn
  rw [addPage_re]

/-- The documents that can be drawn are the same whatever Go's order of going through maps is. -/
theorem C45_reach {E : Ext} (o : Nat → List Bytes → List Bytes) (h : ∀ s l, (o s l).Perm l) {f g : Fpdf} (hr : Reach E noClose f g) : Reach (E.reordered o h) noClose f g := by
  induction hr with
  | refl f => exact Reach.refl f
  | step op cb _ hG _ _ _ ih hh hfo ha =>
    rw [← exec_re (o := o) (h := h) cb _ op hG.1 hG.2]
    exact Reach.step op cb ih hG hh hfo ha

/-- **C45** With catalog sorting on, a document without ties gives the same file in every run, byte for byte, whatever order Go goes through its maps in. -/
theorem C45_reproducible {E : Ext} {o u s : Bytes} {sz : Size} {f : Fpdf} {cb : Cb} {wf : Bool} (hf : Reach E noClose (Fpdf.new o u s sz) f) (hcb : CbReach E noClose cb)
    (hok : errOf E cb f wf = none) (hs : Settled (drawn E cb f)) (ord : Nat → List Bytes → List Bytes) (h : ∀ s l, (ord s l).Perm l) :
    f.output (E.reordered ord h) cb wf = f.output E cb wf := by
  have h1 := (new_fresh o u s sz).next (reach_open hf)
  obtain ⟨last, v, A, P, M, T, d, items, hp⟩ := printed_any hf hcb hok
  obtain ⟨hc, _, _, rfl⟩ := output_ok h1.state hok
  have hl : last = drawn E cb f := hp.eq
  rw [← hl] at hs
  have ha : AliasComm (aliasesOf last) := by
    rcases hs.aliases with q | ⟨x, y, q1, q2, q3, q4⟩
    · exact aliasComm_short q
    · exact aliasComm_bracketed q1 q2 q3 q4
  have hend : ∀ e : (last.enddoc E).err = none, last.enddoc (E.reordered ord h) = last.enddoc E := fun e =>
    enddoc_re last hp.written hp.state hp.err e ⟨hs.sort, hs.spots, hs.fonts, hs.images, hs.templates⟩ ha hs.boxes
  have hclose : f.close (E.reordered ord h) cb = f.close E cb := by
    unfold Fpdf.close at hc ⊢
    dsimp only at hc ⊢
    rw [addPage_re]
    have he : f.err = none := by
      by_contra q
      rw [if_neg q, if_pos q] at hc
      exact q hc
    rw [if_pos he] at hc ⊢
    by_cases hk : f.clipNest > 0
    · rw [if_pos hk]
      have q : (f.assignErr "clip procedure must be explicitly ended").err ≠ none := by simp [Fpdf.assignErr, he]
      rw [if_pos q, if_pos q]
    · rw [if_neg hk] at hc ⊢
      by_cases ht : f.transformNest > 0
      · rw [if_pos ht]
        have q : (f.assignErr "transformation procedure must be explicitly ended").err ≠ none := by simp [Fpdf.assignErr, he]
        rw [if_pos q, if_pos q]
      · rw [if_neg ht] at hc ⊢
        have h0 : ¬ f.err ≠ none := by simp [he]
        rw [if_neg h0] at hc ⊢
        rw [if_neg h0]
        have e1 := hp.eq
        have e2 := hp.err1
        generalize (if f.page = 0 then f.addPage E cb else f) = f1 at *
        split
        · rfl
        · rename_i h3
          rw [if_neg h3] at hc
          split
          · rfl
          · rename_i h4
            rw [if_neg h4, ← e1] at hc
            rw [← e1]
            exact hend hc
  unfold Fpdf.output
  rw [hclose]

/-! ### Examples and refutations -/

theorem lookup_in {α β : Type} [DecidableEq α] {k : α} {v : β} : ∀ {l : List (α × β)}, lookup k l = some v → (k, v) ∈ l
  | [], h => by simp [lookup] at h
  | (a, b) :: r, h => by
    unfold lookup at h
    split at h
    · rename_i e
      cases h
      rw [e]
      exact List.mem_cons_self
    · exact List.mem_cons_of_mem _ (lookup_in h)

/-- A check of `Settled`, for aliases with names in curly brackets. -/
def settledB (f : Fpdf) (mark : UInt8) : Bool :=
  f.m.catalogSort &&
  (decide ((aliasesOf f).map (·.1)).Nodup && (aliasesOf f).all (fun p => p.1.head? == some 0x7B && p.1.getLast? == some 0x7D && p.1.length ≥ 2 &&
      !(p.1.drop 1).dropLast.contains 0x7B && !(p.1.drop 1).dropLast.contains 0x7D && p.1.all (fun c => c ≠ 0 && c < 128) &&
      !p.2.contains 0x7B && !p.2.contains 0x7D && p.2.contains mark && p.2.all (fun c => c ≠ 0 && c < 128) && (aliasesOf f).all (fun q => !q.1.contains mark))) &&
  f.p.pageBoxes.all (fun b => b.2.length ≤ 1) &&
  decide (f.r.spotColorMap.length ≤ 1) &&
  f.t.fonts.all (fun a => f.t.fonts.all (fun b => a.2.i ≠ b.2.i || a.1 = b.1)) &&
  f.r.images.all (fun a => f.r.images.all (fun b => match f.r.imgHeap[a.2]?, f.r.imgHeap[b.2]? with
    | some i, some j => i.w ≠ j.w || { i with n := 0 } = { j with n := 0 }
    | _, _ => true)) &&
  (allTemplates f.r.templates).all (fun t => t.images.length ≤ 1)

theorem settledB_ok (f : Fpdf) (mark : UInt8) (h : settledB f mark = true) : Settled f := by
  simp only [settledB, Bool.and_eq_true, decide_eq_true_eq] at h
  obtain ⟨⟨⟨⟨⟨⟨h1, h2, h2'⟩, h3⟩, h4⟩, h5⟩, h6⟩, h7⟩ := h
  simp only [List.all_eq_true] at h2' h3 h5 h6 h7
  refine ⟨h1, Or.inr ⟨0x7B, 0x7D, by decide, h2, ?_, ?_⟩, ?_, h4, ?_, ?_, ?_⟩
  · intro p hp
    have q := h2' p hp
    simp only [Bool.and_eq_true, beq_iff_eq, decide_eq_true_eq, Bool.not_eq_true', List.all_eq_true, List.contains_eq_mem, decide_eq_false_iff_not] at q
    obtain ⟨⟨⟨⟨⟨⟨⟨⟨⟨⟨q1, q2⟩, q3⟩, q4⟩, q5⟩, q6⟩, _⟩, _⟩, _⟩, _⟩, _⟩ := q
    refine ⟨(p.1.drop 1).dropLast, ?_, q4, q5, fun c hc => ?_⟩
    · match hx : p.1, q1, q3 with
      | a :: r, q1, q3 =>
        rw [hx] at q2
        simp only [List.head?_cons, Option.some.injEq] at q1
        subst q1
        have hr : r ≠ [] := by intro e; rw [e] at q3; simp at q3
        simp only [List.drop_succ_cons, List.drop_zero, List.cons_append]
        rw [List.getLast?_cons_of_ne_nil hr, List.getLast?_eq_getLast_of_ne_nil hr] at q2
        simp only [Option.some.injEq] at q2
        rw [← q2, List.dropLast_append_getLast hr]
    · have := q6 c hc
      simpa using this
  · intro p hp
    have q := h2' p hp
    simp only [Bool.and_eq_true, beq_iff_eq, decide_eq_true_eq, Bool.not_eq_true', List.all_eq_true, List.contains_eq_mem, decide_eq_false_iff_not] at q
    obtain ⟨⟨⟨⟨⟨⟨⟨⟨⟨⟨_, _⟩, _⟩, _⟩, _⟩, _⟩, q1⟩, q2⟩, q3⟩, q4⟩, q5⟩ := q
    refine ⟨q1, q2, ⟨mark, q3, ?_⟩, fun c hc => by simpa using q4 c hc⟩
    intro k hk
    obtain ⟨x, hx, rfl⟩ := List.mem_map.1 hk
    exact q5 x hx
  · intro n
    cases hn : lookup n f.p.pageBoxes with
    | none => simp
    | some b => simpa using h3 _ (lookup_in hn)
  · intro a b x y ha hb e
    have := h5 _ (lookup_in ha) _ (lookup_in hb)
    simp only [Bool.or_eq_true, decide_eq_true_eq] at this
    rcases this with q | q
    · exact absurd e (by simpa using q)
    · exact q
  · intro a b i j ha hb e
    obtain ⟨p, p1, p2⟩ := Option.bind_eq_some_iff.1 ha
    obtain ⟨q, q1, q2⟩ := Option.bind_eq_some_iff.1 hb
    have := h6 _ (lookup_in p1) _ (lookup_in q1)
    simp only [p2, q2, Bool.or_eq_true, decide_eq_true_eq] at this
    rcases this with q | q
    · exact absurd e (by simpa using q)
    · exact q
  · intro t ht
    simpa using h7 t ht

/-- A document with catalog sorting, two aliases, three images, a spot colour, a page box and a template. -/
def almanac : Fpdf := after (Fpdf.new [] [] [] {})
  [.setCatalogSort true, .aliasNbPages [], .registerAlias (B "{title}") (B "Book 2"), .addPage, .setFont (B "helvetica") [] 12, .text 10 10 (B "{title} {nb}"),
   .registerImage (B "a") (some flag), .registerImage (B "b") (some flag), .registerImage (B "c") (some glass), .image (B "b") none 1 1 5 5 false false 0 [],
   .addSpotColor (B "Gold") 10 20 30 40, .setDrawSpotColor (B "Gold") 50, .line 1 1 2 2, .setPageBox (B "trim") { x := 1, y := 1, wd := 50, ht := 50 },
   .useTemplate (some showsFlag) (0, 0) { wd := 10, ht := 10 }, .addPage] byData

theorem almanac_reach : Reach byData noClose (Fpdf.new [] [] [] {}) almanac :=
  reach_after (G := noClose) (ok := pfB) (fun f op h => ⟨(pfB_ok f op h).1, (pfB_ok f op h).2.1⟩) _ _ _ (Reach.refl _) (by decide +kernel)

/-- The hypotheses of `C45_reproducible` hold of it. -/
example : CbReach byData noClose {} ∧ errOf byData {} almanac false = none ∧ Settled (drawn byData {} almanac) := by
  refine ⟨⟨by simp, by simp, fun s => Reach.refl s⟩, by decide +kernel, settledB_ok _ 0x32 (by decide +kernel)⟩

/-- The order in which the keys come, from the last to the first. -/
def backwards : Ext := { byData with ord := fun _ l => l.reverse, ord_perm := fun _ l => List.reverse_perm l }

/-- `backwards` differs from `byData` in nothing else. -/
example : backwards = byData.reordered (fun _ l => l.reverse) (fun _ l => List.reverse_perm l) := rfl

/-- Two spot colours. -/
def inked : Fpdf := after (Fpdf.new [] [] [] {}) [.setCatalogSort true, .addPage, .addSpotColor (B "Gold") 10 20 30 40, .addSpotColor (B "Rust") 50 60 70 80] byData

/-- **C45** refuted for two spot colours: they are written in the order in which Go goes through its map, although catalog sorting is on. -/
theorem C45_spots_false : Reach byData noClose (Fpdf.new [] [] [] {}) inked ∧ inked.m.catalogSort = true ∧ errOf byData {} inked false = none ∧
    errOf backwards {} inked false = none ∧ fileOf backwards {} inked false ≠ fileOf byData {} inked false :=
  ⟨reach_after (G := noClose) (ok := pfB) (fun f op h => ⟨(pfB_ok f op h).1, (pfB_ok f op h).2.1⟩) _ _ _ (Reach.refl _) (by decide +kernel), by decide +kernel, by decide +kernel,
    by decide +kernel, by decide +kernel⟩

/-- Two images of the same width. -/
def paired : Fpdf := after (Fpdf.new [] [] [] {}) [.setCatalogSort true, .addPage, .registerImage (B "a") (some flag), .registerImage (B "b") (some { flag with data := [9, 9] })] byData

/-- **C45** refuted for two images of the same width: images are sorted by their widths only. -/
theorem C45_images_false : Reach byData noClose (Fpdf.new [] [] [] {}) paired ∧ paired.m.catalogSort = true ∧ errOf byData {} paired false = none ∧
    errOf backwards {} paired false = none ∧ fileOf backwards {} paired false ≠ fileOf byData {} paired false :=
  ⟨reach_after (G := noClose) (ok := pfB) (fun f op h => ⟨(pfB_ok f op h).1, (pfB_ok f op h).2.1⟩) _ _ _ (Reach.refl _) (by decide +kernel), by decide +kernel, by decide +kernel,
    by decide +kernel, by decide +kernel⟩

/-- Two page boxes on one page. -/
def boxed : Fpdf := after (Fpdf.new [] [] [] {}) [.setCatalogSort true, .addPage, .setPageBox (B "trim") { wd := 50, ht := 50 }, .setPageBox (B "crop") { wd := 60, ht := 60 }] byData

/-- **C45** refuted for two page boxes on one page. -/
theorem C45_boxes_false : Reach byData noClose (Fpdf.new [] [] [] {}) boxed ∧ boxed.m.catalogSort = true ∧ errOf byData {} boxed false = none ∧
    errOf backwards {} boxed false = none ∧ fileOf backwards {} boxed false ≠ fileOf byData {} boxed false :=
  ⟨reach_after (G := noClose) (ok := pfB) (fun f op h => ⟨(pfB_ok f op h).1, (pfB_ok f op h).2.1⟩) _ _ _ (Reach.refl _) (by decide +kernel), by decide +kernel, by decide +kernel,
    by decide +kernel, by decide +kernel⟩

/-- Without catalog sorting two images are enough. -/
theorem C45_unsorted_false : Reach byData noClose (Fpdf.new [] [] [] {}) album ∧ album.m.catalogSort = false ∧ errOf byData {} album false = none ∧
    errOf backwards {} album false = none ∧ fileOf backwards {} album false ≠ fileOf byData {} album false :=
  ⟨album_reach, by decide +kernel, by decide +kernel, by decide +kernel, by decide +kernel⟩

end Verif.Props
