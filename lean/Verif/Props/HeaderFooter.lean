import Verif.Proof.Log
import Verif.Props.Cells
/-
Claim C15: the header and footer functions.
-/
namespace Verif.Props
open Verif Verif.Model Verif.Proof

/-- The calls of the header and footer functions that a document of `n` pages should have led to: for each page, in order, its header and then its footer, which is told whether the page is the last one. -/
def callsFor (n : Nat) : List CbEvent := (List.range n).flatMap fun i => [.header (i + 1), .footer (i + 1) (decide (i + 1 = n))]

theorem begun_eq (n : Nat) : begun (n + 1) = ((List.range n).flatMap fun i : Nat => [CbEvent.header (i + 1), .footer (i + 1) false]) ++ [.header (n + 1)] := by
  induction n with
  | zero => rfl
  | succ n ih =>
    rw [List.range_succ, List.flatMap_append]
    show begun (n + 1) ++ _ = _
    rw [ih]
    simp

theorem callsFor_eq (n : Nat) : callsFor (n + 1) = begun (n + 1) ++ [.footer (n + 1) true] := by
  rw [begun_eq]
  unfold callsFor
  rw [List.range_succ, List.flatMap_append, List.append_assoc]
  congr 1
  · apply List.flatMap_congr
    intro i hi
    have := List.mem_range.mp hi
    rw [decide_eq_false (by omega)]
  · simp

theorem paged_noClose {E : Ext} {f g : Fpdf} (h : Reach E paged f g) : Reach E noClose f g :=
  Reach.mono (G := paged) (H := noClose) (fun _ _ _ hop => ⟨hop.1, hop.2.1⟩) (fun _ _ => trivial) h

theorem CbReach.paged_noClose {E : Ext} {cb : Cb} (h : CbReach E paged cb) : CbReach E noClose cb :=
  ⟨fun a ha s hs => Props.paged_noClose (h.header a ha s hs), fun a ha b s hs => Props.paged_noClose (h.footer a ha b s hs), fun s => Props.paged_noClose (h.accept s)⟩

/-- **C15.** For every program that sets header and footer functions before the first page (functions that do not themselves add or select pages) and then makes any calls, which may add pages explicitly or
by automatic page breaks, and writes the document without an error while the last page is selected: the header function was called exactly once for every page, when the page began, the footer function
exactly once for every page, when it ended, and it was told `true` for the last page only. The calls are recorded in the ghost component `log`. -/
theorem C15_calls (E : Ext) (o u s : Bytes) (sz : Size) (f : Fpdf) (cb : Cb) (wf : Bool) (hf : Reach E paged (Fpdf.new o u s sz) f) (hcb : CbReach E paged cb)
    (hh : cb.header.isSome = true) (hft : cb.footer.isSome = true) (hok : errOf E cb f wf = none) (hl : f.page = 0 ∨ f.page = f.pages.length - 1) :
    (docOf E cb f wf).log = callsFor (docOf E cb f wf).pageCount := by
  obtain ⟨last, v, A, P, M, T, d, items, hp⟩ := printed_any (paged_noClose hf) (CbReach.paged_noClose hcb) hok
  obtain ⟨n1, n2, n3, n4, n5, n6, n7, n8⟩ := new_open o u s sz
  have h0 : Logged (Fpdf.new o u s sz) := by
    refine ⟨new_get (·.inHeader) (fun _ => rfl) o u s sz, new_get (·.inFooter) (fun _ => rfl) o u s sz, by rw [n5]; simp, by rw [n6, n5]; rfl⟩
  have hc : Cb.Rel (fun _ => True) Logs cb := hcb.rel (fun _ _ h => reach_logs h)
  have he : f.err = none := by
    by_contra hn
    have := hp.err1
    split at this
    · rw [show f.addPage E cb = f from by unfold Fpdf.addPage; rw [if_pos hn]] at this
      exact hn this
    · exact hn this
  have hlog := (reach_logs hf).log h0 he
  have hb : ¬ busy f := by
    unfold busy
    rw [hlog.head, hlog.foot]
    simp
  have h1 : Logged (if f.page = 0 then f.addPage E cb else f) ∧ (if f.page = 0 then f.addPage E cb else f).page = (if f.page = 0 then f.addPage E cb else f).pages.length - 1 := by
    have e1 := hp.err1
    by_cases h0 : f.page = 0
    · rw [if_pos h0] at e1 ⊢
      refine ⟨(addPage_logs hc hh hft f hb).log hlog e1, ?_⟩
      revert e1
      unfold Fpdf.addPage
      rw [if_neg (by simp [he])]
      exact addPageFormat_last hc hh hft f _ _ hlog.some
    · rw [if_neg h0]
      exact ⟨hlog, hl.resolve_left h0⟩
  have hp1 := hp.page1
  have heq := hp.eq
  generalize (if f.page = 0 then f.addPage E cb else f) = g at h1 hp1 heq
  obtain ⟨h1, h2⟩ := h1
  obtain ⟨r1, r2, r3, r4, r5, r6⟩ := runFooter_log hc hft true g
  obtain ⟨k1, k2, k3, k4, k5⟩ := still.of_frm (endLayer_frm (g.runFooter cb true))
  have hlast : last.log = g.log ++ [CbEvent.footer g.page true] := by
    rw [heq]
    exact k5.trans r5
  have hlen : last.pages.length = g.pages.length := by
    rw [heq]
    exact k2.trans r2
  have hlogd : (docOf E cb f wf).log = last.log := by
    have e := congrArg (fun x : Fpdf => x.log) hp.fin.fixed
    exact e
  have hpd : (docOf E cb f wf).pages.length = last.pages.length := by
    rw [hp.fin.pages, (sAli_sub E last hp.state hp.written.att.fix).1]
    unfold onPages
    rw [List.length_mapIdx]
  have hs := h1.some
  obtain ⟨n, hn⟩ : ∃ n, g.pages.length - 1 = n + 1 := ⟨g.pages.length - 2, by omega⟩
  show _ = callsFor ((docOf E cb f wf).pages.length - 1)
  rw [hlogd, hlast, h1.log, h2, hpd, hlen, hn, callsFor_eq]

/-! ### Non-vacuity -/

/-- The document after a list of calls with header and footer functions. -/
def afterWith (cb : Cb) (f : Fpdf) (l : List Op) (E : Ext := {}) : Fpdf := l.foldl (fun f op => f.exec E cb op) f

/-- Calls that `paged` allows in every state. -/
def calmB : Op → Bool
  | .addPage | .addPageFormat .. | .setPage _ | .close | .output _ | .clearError => false
  | _ => true

/-- Calls that `paged` allows. -/
def pagedB (f : Fpdf) (op : Op) : Bool := calmB op || (!f.inHeader && !f.inFooter && match op with | .addPage => true | _ => false)

theorem pagedB_ok (cb : Cb) (hh : cb.header.isSome = true) (hf : cb.footer.isSome = true) (f : Fpdf) (op : Op) (h : pagedB f op = true) : paged.op f cb op := by
  unfold pagedB at h
  rw [Bool.or_eq_true] at h
  rcases h with h | h
  · refine ⟨?_, ?_, ?_, fun _ => ⟨hh, hf⟩, fun _ => ⟨?_, ?_, ?_⟩⟩
    · rintro rfl; cases h
    · rintro b rfl; cases h
    · rintro rfl; cases h
    · rintro rfl; cases h
    · rintro o sz rfl; cases h
    · rintro n rfl; cases h
  · simp only [Bool.and_eq_true, Bool.not_eq_true'] at h
    obtain ⟨⟨h1, h2⟩, h3⟩ := h
    obtain rfl : op = .addPage := by cases op <;> first | rfl | cases h3
    refine ⟨by simp, by simp, by simp, fun _ => ⟨hh, hf⟩, fun x => ?_⟩
    unfold busy at x
    rw [h1, h2] at x
    simp at x

/-- All calls are allowed. -/
def allowedWith (E : Ext) (cb : Cb) : Fpdf → List Op → Bool
  | _, [] => true
  | f, op :: l => pagedB f op && allowedWith E cb (f.exec E cb op) l

theorem reach_afterWith {E : Ext} {cb : Cb} (hcb : CbReach E paged cb) (hh : cb.header.isSome = true) (hf : cb.footer.isSome = true) (f0 : Fpdf) (l : List Op) :
    ∀ f, Reach E paged f0 f → allowedWith E cb f l = true → Reach E paged f0 (afterWith cb f l E) := by
  induction l with
  | nil => intro f h _; exact h
  | cons op l ih =>
    intro f h hg
    unfold allowedWith at hg
    rw [Bool.and_eq_true] at hg
    exact ih _ (Reach.step op cb h (pagedB_ok cb hh hf _ _ hg.1) hcb.header hcb.footer hcb.accept) hg.2

/-- Functions that do nothing, for the calls made by the functions below. -/
def silent : Cb := { header := some id, footer := some fun _ => id }

theorem silent_ok : CbReach oneFont paged silent := by
  refine ⟨fun h hh s _ => ?_, fun h hh b s _ => ?_, fun s => Reach.refl s⟩ <;>
  · simp only [silent, Option.some.injEq] at hh
    subst hh
    exact Reach.refl s

/-- A header and a footer function that write a line each. -/
def titled : Cb :=
  { header := some fun f => afterWith silent f [.setFont (B "helvetica") [] 9, .cell 0 10 (B "title") [] 1 [] false 0 []] oneFont
    footer := some fun last f => afterWith silent f [.setY (-15), .cell 0 10 (if last then B "end" else B "p") [] 0 (B "C") false 0 []] oneFont }

theorem titled_ok : CbReach oneFont paged titled := by
  refine ⟨fun h hh s _ => ?_, fun h hh b s _ => ?_, fun s => Reach.refl s⟩
  · simp only [titled, Option.some.injEq] at hh
    subst hh
    exact reach_afterWith silent_ok rfl rfl s _ s (Reach.refl s) rfl
  · simp only [titled, Option.some.injEq] at hh
    subst hh
    exact reach_afterWith silent_ok rfl rfl s _ s (Reach.refl s) rfl

/-- A page that ends with an automatic page break and a page that ends with a call of `AddPage`. -/
def broken : Fpdf := afterWith titled (Fpdf.new [] (B "mm") (B "A4") {}) [.setFont (B "helvetica") [] 12, .addPage, .setXY 20 272, .cell 30 10 (B "x") [] 1 [] false 0 [], .addPage] oneFont

/-- Non-vacuity of C15. -/
example : Reach oneFont paged (Fpdf.new [] (B "mm") (B "A4") {}) broken ∧ CbReach oneFont paged titled ∧ errOf oneFont titled broken false = none ∧ broken.page = broken.pages.length - 1 ∧
    (docOf oneFont titled broken false).log = [.header 1, .footer 1 false, .header 2, .footer 2 false, .header 3, .footer 3 true] := by
  refine ⟨reach_afterWith titled_ok rfl rfl _ _ _ (Reach.refl _) (by decide +kernel), titled_ok, ?_, ?_, ?_⟩ <;> decide +kernel

/-- **C15.** When an earlier page is selected when the document is written, its footer is called again, with `true`, and the last page's is not called at all. -/
theorem C15_setPage_false : Reach oneFont noClose (Fpdf.new [] (B "mm") (B "A4") {}) (broken.exec oneFont titled (.setPage 1)) ∧ errOf oneFont titled (broken.exec oneFont titled (.setPage 1)) false = none ∧
    (docOf oneFont titled (broken.exec oneFont titled (.setPage 1)) false).log = [.header 1, .footer 1 false, .header 2, .footer 2 false, .header 3, .footer 1 true] := by
  refine ⟨?_, ?_, ?_⟩
  · refine paged_noClose (Reach.step _ titled (reach_afterWith titled_ok rfl rfl _ _ _ (Reach.refl _) (by decide +kernel)) ?_ titled_ok.header titled_ok.footer titled_ok.accept)
    refine ⟨by simp, by simp, by simp, fun _ => ⟨rfl, rfl⟩, fun x => ?_⟩
    have : ¬ busy broken := by unfold busy; decide +kernel
    exact absurd x this
  · decide +kernel
  · decide +kernel

end Verif.Props
