import Verif.Proof.Html
import Mathlib.Data.List.Induction
/- C37: HTML tokenising;  C55: HTML styles. -/
namespace Verif.Props
open Verif Verif.Model Verif.Spec Verif.Proof

/-- The tokens the decomposition `ps`, `tail` of an HTML text calls for: for each piece its text (if not
empty) and its tag, then the remaining text (if not empty). -/
def expectedTokens (lower : Bytes → Bytes) (attrs : Bytes → List (Bytes × Bytes)) (ps : List HtmlPiece)
    (tail : Bytes) : List HtmlSeg :=
  (ps.flatMap fun p => (if p.text = [] then [] else [{ cat := 84, str := p.text }]) ++ [tagSeg lower attrs p.inner])
    ++ (if tail = [] then [] else [{ cat := 84, str := tail }])

theorem htmlLoop_spec (lower : Bytes → Bytes) (attrs : Bytes → List (Bytes × Bytes)) (fuel : Nat) (s : Bytes)
    (hf : s.length < fuel) :
    ∃ ps tail, s = renderHtml ps tail ∧ (∀ p ∈ ps, p.ok) ∧ tailOK tail ∧
      htmlLoop lower attrs fuel s = expectedTokens lower attrs ps tail ∧ (findTag s ≠ none → ps ≠ []) := by
  induction fuel generalizing s with
  | zero => omega
  | succ f ih =>
    unfold htmlLoop
    cases h : findTag s with
    | none =>
      refine ⟨[], s, by simp [renderHtml], by simp, findTag_none h, ?_, by simp⟩
      by_cases hs : s = []
      · subst hs; simp [expectedTokens]
      · have : s.length > 0 := List.length_pos_iff.mpr hs
        simp [expectedTokens, hs]
    | some t =>
      obtain ⟨pre, inner, rest⟩ := t
      obtain ⟨h1, h2, h3⟩ := findTag_some h
      have hl := congrArg List.length h1
      simp only [List.length_append, List.length_cons] at hl
      obtain ⟨ps, tail, e1, e2, e3, e4, -⟩ := ih rest (by omega)
      refine ⟨⟨pre, inner⟩ :: ps, tail, ?_, ?_, e3, ?_, by simp⟩
      · rw [h1, e1]; simp [renderHtml]
      · intro p hp
        rcases List.mem_cons.mp hp with e | e
        · subst e; exact ⟨h2, h3⟩
        · exact e2 p e
      · simp only [e4]
        by_cases hs : pre = []
        · subst hs; simp [expectedTokens]
        · have : 0 < pre.length := List.length_pos_iff.mpr hs
          simp [expectedTokens, hs, this]

/-- **C37** For every input there is a decomposition of the (line-end normalised) text into pieces
`text<tag>` and a remainder without complete tag, such that the tokens are exactly those pieces in order:
nothing is lost, duplicated or reordered. (A text without any tag gives one text token, even if empty.) -/
theorem C37_tokenize_accounts (lower : Bytes → Bytes) (attrs : Bytes → List (Bytes × Bytes)) (s : Bytes) :
    ∃ ps tail, htmlNormalise s = renderHtml ps tail ∧ (∀ p ∈ ps, p.ok) ∧ tailOK tail ∧
      htmlTokenize lower attrs s =
        if ps = [] then [{ cat := 84, str := tail }] else expectedTokens lower attrs ps tail := by
  simp only [htmlTokenize, htmlNormalise_eq]
  cases h : findTag (htmlNormalise s) with
  | none => exact ⟨[], htmlNormalise s, by simp [renderHtml], by simp, findTag_none h, by simp⟩
  | some t =>
    obtain ⟨ps, tail, e1, e2, e3, e4, e5⟩ := htmlLoop_spec lower attrs ((htmlNormalise s).length + 1) (htmlNormalise s) (by omega)
    refine ⟨ps, tail, e1, e2, e3, ?_⟩
    have : ps ≠ [] := e5 (by simp [h])
    simp [this, e4]

/-- Test: the shape of the decomposition on a concrete text. -/
example : htmlTokenize id (fun _ => []) (B "a<b>x\ny</b> 1<2") =
    [⟨84, B "a", []⟩, ⟨79, B "b", []⟩, ⟨84, B "x y", []⟩, ⟨67, B "b", []⟩, ⟨84, B " 1<2", []⟩] := by decide

/-- Net number of open `<t>` tags in a token list. -/
def netOpen (t : Bytes) (l : List HtmlSeg) : Int :=
  l.foldl (fun n el => if el.cat = 79 ∧ el.str = t then n + 1 else if el.cat = 67 ∧ el.str = t then n - 1 else n) 0

/-- The font style in force after some calls (that of the last `SetFont`), if any was set. -/
def styleAfter : List HtmlCall → Option Bytes
  | [] => none
  | .setFont s :: r => (styleAfter r).or (some s)
  | _ :: r => styleAfter r

theorem styleAfter_append (a b : List HtmlCall) : styleAfter (a ++ b) = (styleAfter b).or (styleAfter a) := by
  induction a with
  | nil => simp [styleAfter]
  | cons c a ih => cases c <;> simp [styleAfter, ih]

/-- What one token adds to the level of `t`. -/
def tagDelta (t : Bytes) (el : HtmlSeg) : Int :=
  if el.cat = 79 ∧ el.str = t then 1 else if el.cat = 67 ∧ el.str = t then -1 else 0

theorem netOpen_append (t : Bytes) (l : List HtmlSeg) (el : HtmlSeg) :
    netOpen t (l ++ [el]) = netOpen t l + tagDelta t el := by
  simp only [netOpen, tagDelta, List.foldl_append, List.foldl_cons, List.foldl_nil]
  split
  · rfl
  · split <;> simp [Int.sub_eq_add_neg]

theorem htmlStep_style (env : HtmlEnv) (st : HtmlSt) (el : HtmlSeg) :
    (htmlStep env st el).bold = st.bold + tagDelta (B "b") el ∧
    (htmlStep env st el).italic = st.italic + tagDelta (B "i") el ∧
    (htmlStep env st el).under = st.under + tagDelta (B "u") el ∧
    (styleAfter (htmlStep env st el).calls = some (htmlStyleStr (htmlStep env st el).bold
        (htmlStep env st el).italic (htmlStep env st el).under) ∨
      (styleAfter (htmlStep env st el).calls = styleAfter st.calls ∧ (htmlStep env st el).bold = st.bold ∧
        (htmlStep env st el).italic = st.italic ∧ (htmlStep env st el).under = st.under)) := by
  have n1 : B "b" ≠ B "i" := by decide
  have n2 : B "b" ≠ B "u" := by decide
  have n3 : B "i" ≠ B "u" := by decide
  have n1' := n1.symm
  have n2' := n2.symm
  have n3' := n3.symm
  obtain ⟨cat, str, attr⟩ := el
  by_cases hT : cat = 84
  · subst hT
    simp only [htmlStep, tagDelta, if_true]
    split
    · simp [HtmlSt.putLink, HtmlSt.setStyle, HtmlSt.call, styleAfter_append, styleAfter]
      omega
    · split <;> simp [HtmlSt.call, styleAfter_append, styleAfter]
  · by_cases hO : cat = 79
    · subst hO
      by_cases e1 : str = B "b"
      · subst e1; simp [htmlStep, tagDelta, n1, n2, HtmlSt.setStyle, styleAfter_append, styleAfter]
      · by_cases e2 : str = B "i"
        · subst e2; simp [htmlStep, tagDelta, n1', n3, HtmlSt.setStyle, styleAfter_append, styleAfter]
        · by_cases e3 : str = B "u"
          · subst e3; simp [htmlStep, tagDelta, n2', n3', HtmlSt.setStyle, styleAfter_append, styleAfter]
          · simp only [htmlStep, tagDelta, e1, e2, e3]
            simp only [if_false, if_true, and_false, show ¬ ((79 : UInt8) = 84) by decide]
            repeat' split
            all_goals simp [HtmlSt.call, styleAfter_append, styleAfter]
    · by_cases hC : cat = 67
      · subst hC
        by_cases e1 : str = B "b"
        · subst e1; simp [htmlStep, tagDelta, n1, n2, HtmlSt.setStyle, styleAfter_append, styleAfter]
        · by_cases e2 : str = B "i"
          · subst e2; simp [htmlStep, tagDelta, n1', n3, HtmlSt.setStyle, styleAfter_append, styleAfter]
          · by_cases e3 : str = B "u"
            · subst e3; simp [htmlStep, tagDelta, n2', n3', HtmlSt.setStyle, styleAfter_append, styleAfter]
            · simp only [htmlStep, tagDelta, e1, e2, e3]
              simp only [if_false, if_true, and_false, show ¬ ((67 : UInt8) = 84) by decide,
                show ¬ ((67 : UInt8) = 79) by decide]
              repeat' split
              all_goals simp [HtmlSt.call, styleAfter_append, styleAfter]
      · simp [htmlStep, tagDelta, hT, hO, hC]

/-- **C55** After any sequence of tokens, the style levels are the numbers of unclosed `<b>`, `<i>`, `<u>`
tags, and the font style last set (if any tag or link has set one) is made of exactly the letters whose level
is positive: text is written in the style of its enclosing tags. -/
theorem C55_html_styles (env : HtmlEnv) (l : List HtmlSeg) :
    let st := htmlWrite env l
    st.bold = netOpen (B "b") l ∧ st.italic = netOpen (B "i") l ∧ st.under = netOpen (B "u") l ∧
      (∀ s, styleAfter st.calls = some s →
        s = htmlStyleStr (netOpen (B "b") l) (netOpen (B "i") l) (netOpen (B "u") l)) ∧
      (styleAfter st.calls = none → st.bold = 0 ∧ st.italic = 0 ∧ st.under = 0) := by
  induction l using List.reverseRecOn with
  | nil => simp [htmlWrite, netOpen, styleAfter]
  | append_singleton l el ih =>
    simp only [htmlWrite, List.foldl_append, List.foldl_cons, List.foldl_nil] at ih ⊢
    generalize l.foldl (htmlStep env) {} = st at ih
    obtain ⟨i1, i2, i3, i4, i5⟩ := ih
    obtain ⟨h1, h2, h3, h4⟩ := htmlStep_style env st el
    simp only [netOpen_append, ← i1, ← i2, ← i3, ← h1, ← h2, ← h3, true_and]
    rcases h4 with h4 | ⟨h4, e1, e2, e3⟩
    · rw [h4]; simp
    · rw [h4, e1, e2, e3]
      exact ⟨fun s hs => by rw [i4 s hs, i1, i2, i3], i5⟩

/-- **C55** Text is conserved: the texts written are exactly the text tokens, in order. -/
theorem C55_html_text (env : HtmlEnv) (l : List HtmlSeg) :
    ((htmlWrite env l).calls.filterMap fun
      | .write t => some t | .writeLink t _ => some t | .writeAligned t _ => some t | _ => none) =
    l.filterMap fun el => if el.cat = 84 then some el.str else none := by
  induction l using List.reverseRecOn with
  | nil => rfl
  | append_singleton l el ih =>
    simp only [htmlWrite, List.foldl_append, List.foldl_cons, List.foldl_nil] at ih ⊢
    generalize l.foldl (htmlStep env) {} = st at ih
    rw [List.filterMap_append, ← ih]
    unfold htmlStep
    by_cases hT : el.cat = 84
    · simp only [hT, if_true]
      repeat' split
      all_goals simp [HtmlSt.putLink, HtmlSt.setStyle, HtmlSt.call, hT]
    · simp only [hT, if_false]
      repeat' split
      all_goals simp [HtmlSt.setStyle, HtmlSt.call, hT]

/-- The texts of a token list with the address each is linked to (`[]`: none), when `pending` is the address of the last `a` tag: an `a` tag sets the address (the last
`href` attribute, or none), and the next text uses it up. -/
def linkedTexts : Bytes → List HtmlSeg → List (Bytes × Bytes)
  | _, [] => []
  | pending, el :: l =>
    if el.cat = 84 then (el.str, pending) :: linkedTexts [] l
    else if el.cat = 79 ∧ el.str = B "a" then linkedTexts (((el.attr.reverse.find? (·.1 = B "href")).map (·.2)).getD []) l
    else linkedTexts pending l

/-- The texts written, each with its link. -/
def writtenTexts (l : List HtmlCall) : List (Bytes × Bytes) := l.filterMap fun
  | .write t => some (t, []) | .writeLink t u => some (t, u) | .writeAligned t _ => some (t, []) | _ => none

theorem linked_step (env : HtmlEnv) (st : HtmlSt) (el : HtmlSeg) :
    (el.cat = 84 → writtenTexts (htmlStep env st el).calls = writtenTexts st.calls ++ [(el.str, st.href)] ∧ (htmlStep env st el).href = []) ∧
      (el.cat = 79 ∧ el.str = B "a" → writtenTexts (htmlStep env st el).calls = writtenTexts st.calls ∧
        (htmlStep env st el).href = ((el.attr.reverse.find? (·.1 = B "href")).map (·.2)).getD []) ∧
      (el.cat ≠ 84 → ¬ (el.cat = 79 ∧ el.str = B "a") → writtenTexts (htmlStep env st el).calls = writtenTexts st.calls ∧ (htmlStep env st el).href = st.href) := by
  refine ⟨?_, ?_, ?_⟩
  · intro hT
    unfold htmlStep
    rw [if_pos hT]
    by_cases hh : st.href.length > 0
    · rw [if_pos hh]
      simp [writtenTexts, HtmlSt.putLink, HtmlSt.setStyle, HtmlSt.call]
    · have he : st.href = [] := List.eq_nil_of_length_eq_zero (by omega)
      rw [if_neg hh]
      split <;> simp [writtenTexts, HtmlSt.call, he]
  · rintro ⟨h79, ha⟩
    unfold htmlStep
    rw [if_neg (by rw [h79]; decide), if_pos h79, ha, if_neg (by decide), if_neg (by decide), if_neg (by decide), if_neg (by decide), if_neg (by decide),
      if_neg (by decide), if_neg (by decide), if_pos rfl]
    exact ⟨rfl, rfl⟩
  · intro hT hA
    unfold htmlStep
    rw [if_neg hT]
    by_cases hO : el.cat = 79
    · have : el.str ≠ B "a" := fun h => hA ⟨hO, h⟩
      rw [if_pos hO]
      simp only [this, if_false]
      repeat' split
      all_goals simp [writtenTexts, HtmlSt.setStyle, HtmlSt.call]
    · rw [if_neg hO]
      repeat' split
      all_goals simp [writtenTexts, HtmlSt.setStyle, HtmlSt.call]

theorem linked_from (env : HtmlEnv) (l : List HtmlSeg) : ∀ st : HtmlSt, writtenTexts (l.foldl (htmlStep env) st).calls = writtenTexts st.calls ++ linkedTexts st.href l := by
  induction l with
  | nil => intro st; simp [linkedTexts]
  | cons el l ih =>
    intro st
    obtain ⟨s1, s2, s3⟩ := linked_step env st el
    have e : linkedTexts st.href (el :: l) = if el.cat = 84 then (el.str, st.href) :: linkedTexts [] l
      else if el.cat = 79 ∧ el.str = B "a" then linkedTexts (((el.attr.reverse.find? (·.1 = B "href")).map (·.2)).getD []) l
      else linkedTexts st.href l := rfl
    rw [List.foldl_cons, ih, e]
    by_cases hT : el.cat = 84
    · rw [if_pos hT, (s1 hT).1, (s1 hT).2, List.append_assoc]; rfl
    · rw [if_neg hT]
      by_cases hA : el.cat = 79 ∧ el.str = B "a"
      · rw [if_pos hA, (s2 hA).1, (s2 hA).2]
      · rw [if_neg hA, (s3 hT hA).1, (s3 hT hA).2]

/-- **C55** Links: the texts written, in order, are the text tokens, and each is linked to the address of the `a` tag since the previous text, if there is one with an
`href`. -/
theorem C55_html_links (env : HtmlEnv) (l : List HtmlSeg) : writtenTexts (htmlWrite env l).calls = linkedTexts [] l := by
  unfold htmlWrite
  rw [linked_from]; rfl

example : linkedTexts [] [⟨84, B "see ", []⟩, ⟨79, B "a", [(B "href", B "u")]⟩, ⟨84, B "x", []⟩, ⟨67, B "a", []⟩, ⟨84, B "y", []⟩] =
    [(B "see ", []), (B "x", B "u"), (B "y", [])] := by decide

/-- Non-vacuity / test of the style theorem. -/
example : styleAfter (htmlWrite {} [⟨79, B "b", []⟩, ⟨79, B "i", []⟩, ⟨84, B "x", []⟩, ⟨67, B "b", []⟩]).calls = some (B "I") := by
  decide

/-- A user may expect all text inside `<a href=...>` to be linked; it is not: only the first text token is. -/
theorem C55_link_scope_false :
    ∃ l : List HtmlSeg, l = [⟨79, B "a", [(B "href", B "u")]⟩, ⟨84, B "x", []⟩, ⟨79, B "b", []⟩, ⟨84, B "y", []⟩,
        ⟨67, B "b", []⟩, ⟨67, B "a", []⟩] ∧
      HtmlCall.write (B "y") ∈ (htmlWrite {} l).calls := by
  exact ⟨_, rfl, by decide⟩

end Verif.Props
