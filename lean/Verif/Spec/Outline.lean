import Verif.Spec.File
import Verif.Spec.Lex
/-
The outline of a document (ISO 32000-1, 12.3.3) that a list of levels asks for. Bookmarks are numbered from 0; `lv i` is the level of
bookmark `i`, and there are `n` bookmarks.
-/
namespace Verif.Spec

/-- The levels start at 0, are not negative, and never go down by more than one step. -/
structure LevelsOk (n : Nat) (lv : Nat → Int) : Prop where
  zero : lv 0 = 0
  pos : ∀ i, i < n → 0 ≤ lv i
  step : ∀ i, i + 1 < n → lv (i + 1) ≤ lv i + 1

/-- `c` belongs under `p`: `p` is the nearest bookmark before `c` with a lower level. -/
def Under (n : Nat) (lv : Nat → Int) (p c : Nat) : Prop := p < c ∧ c < n ∧ lv p < lv c ∧ ∀ j, p < j → j < c → lv c ≤ lv j

/-- `c` is at the top: no bookmark before it has a lower level. -/
def Top (n : Nat) (lv : Nat → Int) (c : Nat) : Prop := c < n ∧ ∀ j, j < c → lv c ≤ lv j

/-- `b` is the item after `a` in the same list of items. -/
def After (n : Nat) (lv : Nat → Int) (a b : Nat) : Prop := a < b ∧ b < n ∧ lv a = lv b ∧ ∀ j, a < j → j < b → lv a < lv j

/-- The links of an outline item. The root of the outline is item number `n`. -/
structure ItemLinks where
  parent : Nat
  prev : Option Nat
  next : Option Nat
  first : Option Nat
  last : Option Nat

/-- The links describe the outline with these levels; `firstTop` and `lastTop` are the links of the root. -/
structure IsOutline (n : Nat) (lv : Nat → Int) (lk : Nat → ItemLinks) (firstTop lastTop : Nat) : Prop where
  parent : ∀ p c, Under n lv p c → (lk c).parent = p
  top : ∀ c, Top n lv c → (lk c).parent = n
  next : ∀ a b, a < n → ((lk a).next = some b ↔ After n lv a b)
  prev : ∀ a b, b < n → ((lk b).prev = some a ↔ After n lv a b)
  first : ∀ p c, p < n → ((lk p).first = some c ↔ Under n lv p c ∧ ∀ c', Under n lv p c' → c ≤ c')
  last : ∀ p c, p < n → ((lk p).last = some c ↔ Under n lv p c ∧ ∀ c', Under n lv p c' → c' ≤ c)
  rootFirst : Top n lv firstTop ∧ ∀ c, Top n lv c → firstTop ≤ c
  rootLast : Top n lv lastTop ∧ ∀ c, Top n lv c → c ≤ lastTop

/-- An entry that refers to an object, or nothing. -/
def refEntry (key : Bytes) (base : Nat) : Option Nat → Bytes
  | some i => key ++ decimal (base + i) ++ B " 0 R\n"
  | none => []

/-- The text of an outline item. The items are the objects from `base` on. -/
def outlineText (base : Nat) (lk : ItemLinks) (title : Bytes) (page : Nat) (y : Bytes) : Bytes :=
  B "<</Title " ++ title ++ B "\n/Parent " ++ decimal (base + lk.parent) ++ B " 0 R\n" ++ refEntry (B "/Prev ") base lk.prev ++ refEntry (B "/Next ") base lk.next
    ++ refEntry (B "/First ") base lk.first ++ refEntry (B "/Last ") base lk.last ++ B "/Dest [" ++ decimal page ++ B " 0 R /XYZ 0 " ++ y ++ B " null]\n/Count 0>>\n"

/-- Object `base + i` of the file is the outline item with these links; its title reads as `title`, and it leads to height `y` of the page that is object `page`. -/
def OutlineItem (items : List (Nat × Body)) (decrypt : Nat → Bytes → Bytes) (base i : Nat) (lk : ItemLinks) (title : Bytes) (page : Nat) (y : Bytes) : Prop :=
  ∃ lit c, (base + i, Body.plain (outlineText base lk lit page y)) ∈ items ∧ (∀ rest, readLit (lit ++ rest) = some (c, rest)) ∧ decrypt (base + i) c = title

/-- Object `base + n` of the file is the root of the outline. -/
def OutlineRoot (items : List (Nat × Body)) (base n first last : Nat) : Prop :=
  (base + n, Body.plain (B "<</Type /Outlines /First " ++ decimal (base + first) ++ B " 0 R\n/Last " ++ decimal (base + last) ++ B " 0 R>>\n")) ∈ items

/-- The text of an annotation that leads to height `y` of the page that is object `page`, when its rectangle is clicked. -/
def gotoText (rect : Bytes) (page : Nat) (y : Bytes) : Bytes :=
  B "<</Type /Annot /Subtype /Link /Rect [" ++ rect ++ B "] /Border [0 0 0] /Dest [" ++ decimal page ++ B " 0 R /XYZ 0 " ++ y ++ B " null]>>"

/-- The list of annotations of a page contains such an annotation. -/
def Leads (annots rect : Bytes) (page : Nat) (y : Bytes) : Prop := ∃ u v, annots = B "/Annots [" ++ u ++ gotoText rect page y ++ v

end Verif.Spec
