import Verif.Model.Sprintf
/-
The width array of a UTF-8 font: `generateCIDFontMap`, `/repo/fpdf.go:4191-4306`, and the PHP-like arrays it uses, `/repo/util.go:324-445`.
-/
namespace Verif.Model

/-- `untypedKeyMap`, `/repo/util.go:326-329`: keys and values side by side. A key is a number or "interval" (`none`), the only keys the code uses. -/
abbrev KeyMap := List (Option Nat × Nat)

namespace KeyMap

/-- `getIndex` for a key other than nil, `/repo/util.go:332-342`. -/
def getIndex (m : KeyMap) (key : Option Nat) : Option Nat := m.findIdx? (·.1 == key)

/-- The search for the first free number in `put` with a nil key, `/repo/util.go:348-354`. It ends: one of the first `m.length + 1` numbers is free. -/
def freeKey (m : KeyMap) : Nat := ((List.range (m.length + 1)).find? fun n => (m.getIndex (some n)).isNone).getD 0

/-- `put` with a nil key, `/repo/util.go:346-356`. -/
def push (m : KeyMap) (value : Nat) : KeyMap := m ++ [(some m.freeKey, value)]

/-- `put` with a key, `/repo/util.go:357-365`. -/
def put (m : KeyMap) (key : Option Nat) (value : Nat) : KeyMap :=
  match m.getIndex key with
  | none => m ++ [(key, value)]
  | some i => m.modify i fun e => (e.1, value)

/-- `delete`, `/repo/util.go:369-386`. -/
def delete (m : KeyMap) (key : Option Nat) : KeyMap :=
  match m.getIndex key with
  | none => m
  | some i => m.eraseIdx i

/-- `get`, `/repo/util.go:389-395`. -/
def get (m : KeyMap) (key : Option Nat) : Nat :=
  match m.getIndex key with
  | none => 0
  | some i => (m.getD i (none, 0)).2

/-- `arrayMerge` of two arrays that are not nil, `/repo/util.go:404-430`. -/
def merge (a b : KeyMap) : KeyMap :=
  b.foldl (fun ans e => if e.1 = none then (if (a.getIndex none).isNone then ans.put none e.2 else ans) else ans.push e.2) a

end KeyMap

/-- `remove`, `/repo/util.go:433-446`: the last occurrence of the key, or the first element if there is none. -/
def removeKey (arr : List Nat) (key : Nat) : List Nat :=
  let n := arr.zipIdx.foldl (fun n e => if e.1 = key then e.2 else n) 0
  arr.eraseIdx n

/-- The variables of the first loop of `generateCIDFontMap`, `/repo/fpdf.go:4192-4198`. -/
structure CidSt where
  rangeID : Nat := 0
  arr : Nat → KeyMap := fun _ => []
  keys : List Nat := []
  prevCid : Int := -2
  prevWidth : Int := -1
  interval : Bool := false

/-- Assignment to a map. `/repo/fpdf.go:4214-4261`. -/
def setAt (m : Nat → KeyMap) (k : Nat) (v : KeyMap) : Nat → KeyMap := fun j => if j = k then v else m j

/-- One character of the first loop, `/repo/fpdf.go:4214-4261`. -/
def cidStep (s : CidSt) (e : Nat × Nat) : CidSt :=
  let cid := e.1
  let width := e.2
  let s :=
    if (cid : Int) = s.prevCid + 1 then
      if (width : Int) = s.prevWidth then
        let s :=
          if width = (s.arr s.rangeID).get (some 0) then { s with arr := setAt s.arr s.rangeID ((s.arr s.rangeID).push width) }
          else
            let arr := setAt s.arr s.rangeID (s.arr s.rangeID).dropLast
            let r := s.prevCid.toNat
            { s with rangeID := r, arr := setAt arr r ((KeyMap.push [] s.prevWidth.toNat).push width), keys := s.keys ++ [r] }
        { s with interval := true, arr := setAt s.arr s.rangeID ((s.arr s.rangeID).put none 1) }
      else
        let s :=
          if s.interval then { s with rangeID := cid, arr := setAt s.arr cid (KeyMap.push [] width), keys := s.keys ++ [cid] }
          else { s with arr := setAt s.arr s.rangeID ((s.arr s.rangeID).push width) }
        { s with interval := false }
    else { s with rangeID := cid, arr := setAt s.arr cid (KeyMap.push [] width), keys := s.keys ++ [cid], interval := false }
  { s with prevCid := cid, prevWidth := width }

/-- The characters the first loop considers, with their widths, `/repo/fpdf.go:4202-4212`. `cw` is the table of widths, `used` the characters used with a non-zero mark.
SIMPLIFICATION: widths are natural numbers (they come from 16-bit fields); a character beyond the table (a Go panic) has none. -/
def cidChars (cw : List Nat) (used : Nat → Bool) (lastRune : Nat) : List (Nat × Nat) :=
  (List.range' 1 lastRune).filterMap fun cid =>
    let w := cw.getD cid 0
    if w = 0 then none
    else if cid > 255 ∧ used cid = false then none
    else some (cid, if w = 65535 then 0 else w)

/-- The variables of the second loop, `/repo/fpdf.go:4264-4267`. `none` is the initial -1, which is no key. -/
structure MergeSt where
  arr : Nat → KeyMap
  keys : List Nat
  previousKey : Nat := 0
  nextKey : Option Nat := none
  isInterval : Bool := false

theorem removeKey_length (arr : List Nat) (key : Nat) (h : arr ≠ []) : (removeKey arr key).length < arr.length := by
  unfold removeKey
  have key' : ∀ (l : List (Nat × Nat)) (n m : Nat), n < m → (∀ e ∈ l, e.2 < m) → l.foldl (fun n e => if e.1 = key then e.2 else n) n < m := by
    intro l
    induction l with
    | nil => intro n m h _; exact h
    | cons e l ih =>
      intro n m h h'
      rw [List.foldl_cons]
      refine ih _ m ?_ fun x hx => h' x (by simp [hx])
      split
      · exact h' e (by simp)
      · exact h
  have hpos : 0 < arr.length := List.length_pos_iff.mpr h
  have := key' arr.zipIdx 0 arr.length hpos fun e he => by
    have := List.mem_zipIdx he
    omega
  dsimp only
  rw [List.length_eraseIdx, if_pos this]
  omega

/-- The second loop, `/repo/fpdf.go:4267-4296`. `ws` is the array before the "interval" key is deleted from it: where the code deletes the key first, it is the last one,
and the copy that the code has of the array still has it. -/
def mergeLoop (s : MergeSt) (g : Nat) : MergeSt :=
  if h : g < s.keys.length then
    let key := s.keys.getD g 0
    let ws := s.arr key
    let cws := ws.length
    let joined := s.nextKey = some key ∧ s.isInterval = false ∧ ((ws.getIndex none).isNone ∨ cws < 4)
    let hasInt := (ws.getIndex none).isSome
    let arr1 := setAt s.arr key (ws.delete none)
    if joined then
      mergeLoop { s with arr := setAt arr1 s.previousKey (KeyMap.merge (arr1 s.previousKey) (arr1 key)), keys := removeKey s.keys key,
                         nextKey := some (key + cws - (if hasInt then 1 else 0)), isInterval := hasInt && decide (cws > 3) } g
    else
      mergeLoop { s with arr := arr1, previousKey := key, nextKey := some (key + cws - (if hasInt then 1 else 0)), isInterval := hasInt && decide (cws > 3) } (g + 1)
  else s
termination_by s.keys.length - g
decreasing_by
  · have := removeKey_length s.keys (s.keys.getD g 0) (by intro e; rw [e] at h; simp at h)
    omega
  · omega

/-- `implode`, `/repo/fpdf.go:4308-4318`. -/
def implode (sep : Bytes) : List Nat → Bytes
  | [] => []
  | [a] => natDec a
  | a :: l => natDec a ++ sep ++ implode sep l

/-- One entry of the array, `/repo/fpdf.go:4299-4304`. The number of different values is 1 iff there is one and the others are equal to it. -/
def cidEntry (k : Nat) (ws : KeyMap) : Bytes :=
  if (ws.map (·.2)).eraseDups.length = 1 then sprintf " %d %d %d" [.d k, .d (k + ws.length - 1 : Nat), .d (ws.get (some 0))]
  else sprintf " %d [ %s ]\n" [.d k, .s (implode (B " ") (ws.map (·.2)))]

/-- `generateCIDFontMap`, `/repo/fpdf.go:4191-4306`: the line written. -/
def cidFontMap (cw : List Nat) (used : Nat → Bool) (lastRune : Nat) : Bytes :=
  let s := (cidChars cw used lastRune).foldl cidStep {}
  let t := mergeLoop { arr := s.arr, keys := s.keys } 0
  B "/W [" ++ t.keys.flatMap (fun k => cidEntry k (t.arr k)) ++ B " ]"

end Verif.Model
