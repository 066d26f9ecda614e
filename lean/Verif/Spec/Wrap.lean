import Verif.Spec.Bytes
/-
Wrapping text into lines: first fit, breaking at separators.
-/
namespace Verif.Spec

/-- The width of a piece of text. -/
def width (w : Nat → Int) (l : List Nat) : Int := (l.map w).sum

/-- How text is wrapped into lines of at most `wmax`: `Wrapped … s ls` says that `ls` are the lines of `s`. A line is taken from the front and ends
* at a newline, which is dropped;
* at a separator, which is dropped, if the separator or the beginning of the next word (up to its next separator) does not fit any more;
* in front of a character, if that character does not fit any more and there is no separator to break at;
* after its first character, if already that does not fit;
* with the text. The last line is omitted if it is empty, unless `keep` is set.
A line always fits, unless it is a single character. -/
inductive Wrapped (isSep : Nat → Bool) (w : Nat → Int) (wmax : Int) (keep : Bool) : List Nat → List (List Nat) → Prop
  | done : keep = false → Wrapped isSep w wmax keep [] []
  | last {l : List Nat} : (keep = true ∨ l ≠ []) → 10 ∉ l → (l = [] ∨ width w l ≤ wmax) → Wrapped isSep w wmax keep l [l]
  | newline {l r : List Nat} {ls : List (List Nat)} : 10 ∉ l → (l = [] ∨ width w l ≤ wmax) → Wrapped isSep w wmax keep r ls →
      Wrapped isSep w wmax keep (l ++ 10 :: r) (l :: ls)
  | space {l : List Nat} {c : Nat} {word r : List Nat} {ls : List (List Nat)} : isSep c = true → c ≠ 10 → 10 ∉ l → (l = [] ∨ width w l ≤ wmax) →
      (∀ x ∈ word, isSep x = false) → wmax < width w (l ++ c :: word) → Wrapped isSep w wmax keep (word ++ r) ls →
      Wrapped isSep w wmax keep (l ++ c :: (word ++ r)) (l :: ls)
  | cut {l : List Nat} {c : Nat} {r : List Nat} {ls : List (List Nat)} : (∀ x ∈ l, isSep x = false) → isSep c = false → 10 ∉ l → l ≠ [] → width w l ≤ wmax →
      wmax < width w (l ++ [c]) → Wrapped isSep w wmax keep (c :: r) ls → Wrapped isSep w wmax keep (l ++ c :: r) (l :: ls)
  | single {c : Nat} {r : List Nat} {ls : List (List Nat)} : isSep c = false → c ≠ 10 → wmax < w c → Wrapped isSep w wmax keep r ls →
      Wrapped isSep w wmax keep (c :: r) ([c] :: ls)

end Verif.Spec
