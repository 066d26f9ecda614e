import Verif.Spec.Bytes
/-
A lexical scanner for PDF syntax (ISO 32000-1, 7.2 and 7.3), as a byte-at-a-time automaton.
This is the reader's side: it knows nothing of how the library writes.
-/
namespace Verif.Spec

/-- Tokens of PDF syntax. -/
inductive Tok
  | word (w : Bytes)      -- number, keyword or operator
  | name (w : Bytes)      -- /Name
  | str (s : Bytes)       -- literal string, decoded
  | hex (s : Bytes)       -- hexadecimal string, undecoded
  | punct (c : UInt8)     -- [ ] { } and stray < >
  | dictOpen              -- <<
  | dictClose             -- >>
  deriving DecidableEq, Repr

/-- Position inside a literal string (7.3.4.2). -/
inductive StrSub
  | norm                       -- ordinary
  | esc                        -- after a reverse solidus
  | oct (cnt : Nat) (v : Nat)  -- inside an octal escape: `cnt` digits read so far
  | cr                         -- after an unescaped CR (already read as LF; a following LF is dropped)
  | escCr                      -- after reverse solidus CR (line continuation; a following LF is dropped)
  deriving DecidableEq, Repr

inductive Mode
  | ws                                              -- between tokens
  | word (acc : Bytes)
  | name (acc : Bytes)
  | str (depth : Nat) (acc : Bytes) (sub : StrSub)  -- inside ( ... ), `depth` ≥ 1 unclosed parentheses
  | lt                                              -- after a single <
  | gt                                              -- after a single >
  | hex (acc : Bytes)
  | comment
  deriving DecidableEq, Repr

/-- An ordinary (not escaped) byte inside a literal string. -/
def strNorm (depth : Nat) (acc : Bytes) (c : UInt8) : Mode × List Tok :=
  if c = 0x5C then (.str depth acc .esc, [])
  else if c = 0x28 then (.str (depth + 1) (acc ++ [c]) .norm, [])
  else if c = 0x29 then
    if depth ≤ 1 then (.ws, [.str acc]) else (.str (depth - 1) (acc ++ [c]) .norm, [])
  else if c = 13 then (.str depth (acc ++ [10]) .cr, [])
  else (.str depth (acc ++ [c]) .norm, [])

/-- A byte following a reverse solidus inside a literal string (table 3). -/
def strEsc (depth : Nat) (acc : Bytes) (c : UInt8) : Mode × List Tok :=
  if c = 0x6E then (.str depth (acc ++ [10]) .norm, [])        -- \n
  else if c = 0x72 then (.str depth (acc ++ [13]) .norm, [])   -- \r
  else if c = 0x74 then (.str depth (acc ++ [9]) .norm, [])    -- \t
  else if c = 0x62 then (.str depth (acc ++ [8]) .norm, [])    -- \b
  else if c = 0x66 then (.str depth (acc ++ [12]) .norm, [])   -- \f
  else if isOctal c then (.str depth acc (.oct 1 (c.toNat - 48)), [])
  else if c = 13 then (.str depth acc .escCr, [])
  else if c = 10 then (.str depth acc .norm, [])
  else (.str depth (acc ++ [c]) .norm, [])                     -- \( \) \\ and unknown escapes

/-- A byte between tokens. -/
def startTok (c : UInt8) : Mode × List Tok :=
  if isWs c then (.ws, [])
  else if c = 0x25 then (.comment, [])
  else if c = 0x28 then (.str 1 [] .norm, [])
  else if c = 0x2F then (.name [], [])
  else if c = 0x3C then (.lt, [])
  else if c = 0x3E then (.gt, [])
  else if isDelim c then (.ws, [.punct c])
  else (.word [c], [])

/-- One step of the scanner: new mode and the tokens completed by this byte. -/
def lexStep (m : Mode) (c : UInt8) : Mode × List Tok :=
  match m with
  | .ws => startTok c
  | .word acc =>
    if isRegular c then (.word (acc ++ [c]), [])
    else let (m', ts) := startTok c; (m', .word acc :: ts)
  | .name acc =>
    if isRegular c then (.name (acc ++ [c]), [])
    else let (m', ts) := startTok c; (m', .name acc :: ts)
  | .str d acc .norm => strNorm d acc c
  | .str d acc .esc => strEsc d acc c
  | .str d acc (.oct n v) =>
    if isOctal c ∧ n < 3 then (.str d acc (.oct (n + 1) (v * 8 + (c.toNat - 48))), [])
    else strNorm d (acc ++ [UInt8.ofNat v]) c
  | .str d acc .cr => if c = 10 then (.str d acc .norm, []) else strNorm d acc c
  | .str d acc .escCr => if c = 10 then (.str d acc .norm, []) else strNorm d acc c
  | .lt =>
    if c = 0x3C then (.ws, [.dictOpen])
    else if c = 0x3E then (.ws, [.hex []])
    else (.hex [c], [])
  | .gt =>
    if c = 0x3E then (.ws, [.dictClose])
    else let (m', ts) := startTok c; (m', .punct 0x3E :: ts)
  | .hex acc => if c = 0x3E then (.ws, [.hex acc]) else (.hex (acc ++ [c]), [])
  | .comment => if c = 10 ∨ c = 13 then (.ws, []) else (.comment, [])

/-- Scan a byte string starting in mode `m`. -/
def lexFrom (m : Mode) : Bytes → Mode × List Tok
  | [] => (m, [])
  | c :: cs =>
    let (m1, t1) := lexStep m c
    let (m2, t2) := lexFrom m1 cs
    (m2, t1 ++ t2)

/-- The tokens still pending at end of input. -/
def flushTok : Mode → List Tok
  | .word acc => [.word acc]
  | .name acc => [.name acc]
  | .gt => [.punct 0x3E]
  | _ => []

/-- The tokens of a complete byte string. -/
def lex (s : Bytes) : List Tok := let (m, ts) := lexFrom .ws s; ts ++ flushTok m

/-- Read one literal string object at the head of the input: its value and the bytes that follow the
closing parenthesis. `none` if the input does not start with `(` or the string is not terminated. -/
def readLitFrom (m : Mode) : Bytes → Option (Bytes × Bytes)
  | [] => none
  | c :: cs =>
    match lexStep m c with
    | (_, Tok.str s :: _) => some (s, cs)
    | (m', _) => readLitFrom m' cs

def readLit : Bytes → Option (Bytes × Bytes)
  | c :: cs => if c = 0x28 then readLitFrom (.str 1 [] .norm) cs else none
  | [] => none

/-- End-of-line normalisation a reader applies to *unescaped* bytes of a literal string: CR LF and lone
CR are read as LF (7.3.4.2). -/
def eolNorm : Bytes → Bytes
  | [] => []
  | 13 :: 10 :: r => 10 :: eolNorm r
  | 13 :: r => 10 :: eolNorm r
  | c :: r => c :: eolNorm r

end Verif.Spec
