import Verif.Spec.Bytes
/-
The linking of bookmarks, `/repo/fpdf.go:4728-4748`.
-/
namespace Verif.Model

/-- The link fields of `outlineType`, `/repo/def.go:284-291` (`none` is -1). `parent` is an index, or the number of bookmarks for the
root. -/
structure OutLinks where
  parent : Nat := 0
  first : Option Nat := none
  last : Option Nat := none
  next : Option Nat := none
  prev : Option Nat := none
  deriving DecidableEq, Repr

/-- State of the linking loop: links of all bookmarks, `lru` (a Go map: absent keys read as 0), `level`. `/repo/fpdf.go:4726-4730`. -/
structure OutSt where
  links : List OutLinks
  lru : List (Int × Nat) := []
  level : Int := 0

/-- Result. `/repo/fpdf.go:4725-4748`. -/
structure OutRes where
  links : List OutLinks
  lastTop : Nat

/-- Map read, 0 when absent. `/repo/fpdf.go:4732`. -/
def lruGet (k : Int) : List (Int × Nat) → Nat
  | [] => 0
  | (a, b) :: r => if a = k then b else lruGet k r

/-- Modify entry `i`. `/repo/fpdf.go:4733-4744`. -/
def modLink (i : Nat) (g : OutLinks → OutLinks) : List OutLinks → List OutLinks
  | [] => []
  | a :: r => match i with
    | 0 => g a :: r
    | i + 1 => a :: modLink i g r

/-- One iteration, `/repo/fpdf.go:4731-4747`, for bookmark `i` at level `lv`. -/
def outStep (nb : Nat) (s : OutSt) (i : Nat) (lv : Int) : OutSt :=
  let links :=
    if lv > 0 then
      let parent := lruGet (lv - 1) s.lru
      let ls := modLink i (fun o => { o with parent := parent }) s.links
      let ls := modLink parent (fun o => { o with last := some i }) ls
      if lv > s.level then modLink parent (fun o => { o with first := some i }) ls else ls
    else modLink i (fun o => { o with parent := nb }) s.links
  let links :=
    if lv ≤ s.level ∧ i > 0 then
      let prev := lruGet lv s.lru
      let ls := modLink prev (fun o => { o with next := some i }) links
      modLink i (fun o => { o with prev := some prev }) ls
    else links
  { links := links, lru := (lv, i) :: s.lru, level := lv }

/-- The loop over the levels from bookmark `i` on. `/repo/fpdf.go:4730-4748`. -/
def outLoop (nb : Nat) : Nat → List Int → OutSt → OutSt
  | _, [], s => s
  | i, lv :: r, s => outLoop nb (i + 1) r (outStep nb s i lv)

/-- The whole linking, `/repo/fpdf.go:4728-4748`, and `lru[0]` used at `4774`. -/
def outlineLinks (levels : List Int) : OutRes :=
  let nb := levels.length
  let s := outLoop nb 0 levels { links := List.replicate nb {} }
  { links := s.links, lastTop := lruGet 0 s.lru }

end Verif.Model
