import Mathlib.Tactic.TypeStar

/-
The routines that read one parameter from the text input file:
`ReadInt2`, `ReadDou2`, `ReadMatProps` and `ReadChar` (/repo/MDLIB/InputOutput.c:1719-1808,
1899-1966, 1972-2038, 2044-2181).

Characters are `Char`; the terminating zero byte is `NUL`.  A line buffer `char line[n]` is a
function from positions to characters: its content before the first read is arbitrary (the C
buffers of the numeric readers are not initialised) and what `fgets` does not overwrite stays
there.  A read outside the buffer is the outcome `oob`.  `atoi` and `atof` are parameters
(`parse`), applied to the C string that starts behind the equal sign.
-/
namespace Verif.Input

/-- Terminating zero byte of a C string (InputOutput.c:1924, `'\0'`). -/
def NUL : Char := Char.ofNat 0

/-- `fgets(line, cap+1, fin)` on the unread part of the file: reads up to `cap` characters, stops
behind a newline.  Result: characters read, unread rest, and whether the end of the file was hit
(what `feof` reports afterwards) (InputOutput.c:1918-1919, 1739-1741). -/
def fgets : Nat → List Char → List Char × List Char × Bool
  | 0, r => ([], r, false)
  | _ + 1, [] => ([], [], true)
  | n + 1, c :: r =>
    if c = '\n' then ([c], r, false)
    else (c :: (fgets n r).1, (fgets n r).2.1, (fgets n r).2.2)
  termination_by structural _ r => r

/-- Buffer after `fgets` stored `chunk` and its terminating zero; a read that got no character
leaves the buffer alone (C standard, used at InputOutput.c:1918). -/
def load (buf : Nat → Char) (chunk : List Char) : Nat → Char := fun i =>
  if chunk = [] then buf i
  else if i < chunk.length then chunk.getD i NUL
  else if i = chunk.length then NUL else buf i

/-- First position below `n` holding the character `c`; `none` if the buffer holds none
(the loops at InputOutput.c:1929-1932 and 1949-1951). -/
@[irreducible] def firstIdx (c : Char) (buf : Nat → Char) (n : Nat) : Option Nat :=
  (List.range n).find? fun i => decide (buf i = c)

/-- C string made of the first `n` characters of the buffer followed by a zero
(`param2`, InputOutput.c:1935-1943). -/
def cstr (buf : Nat → Char) (n : Nat) : List Char :=
  ((List.range n).map buf).takeWhile fun c => decide (c ≠ NUL)

/-- C string starting at position `s` of a buffer of `n` characters (`&line[h+1]`,
InputOutput.c:1953).  Simplified: if no zero byte follows inside the buffer the text ends with
the buffer. -/
@[irreducible] def cstrFrom (buf : Nat → Char) (s n : Nat) : List Char :=
  ((List.range' s (n - s)).map buf).takeWhile fun c => decide (c ≠ NUL)

/-- Outcome of a reader: a value, the default, a read outside the line buffer, `exit(0)`, use of
freed memory, or a string without terminating zero; `loop` marks exhausted fuel and is shown never
to occur. -/
inductive Out (α : Type*) where
  | value (a : α)
  | dflt
  | oob
  | exit
  | freed
  | unterminated
  | loop
  deriving DecidableEq, Repr

/-- Size of the line buffers of the numeric readers (`bufmax`, InputOutput.c:1902, 1975, 2047). -/
def bufmax : Nat := 1000

/-- Search of the equal sign and conversion of what follows; `none` if the buffer has no equal
sign.  The search covers the whole buffer, not only the current line
(InputOutput.c:1948-1960, 2021-2032). -/
def afterEq {α : Type*} (parse : List Char → α) (buf : Nat → Char) : Option α :=
  match firstIdx '=' buf bufmax with
  | some h => if buf 0 ≠ NUL then some (parse (cstrFrom buf (h + 1) bufmax)) else none
  | none => none

/-- Line loop of `ReadInt2` and `ReadDou2` (InputOutput.c:1915-1963, 1988-2035), which are the same
up to `atoi`/`atof`. `fuel` bounds the number of lines. -/
def scanNum {α : Type*} (parse : List Char → α) (name : List Char) :
    Nat → (Nat → Char) → List Char → Out α
  | 0, _, _ => .loop
  | fuel + 1, buf, rest =>
    let r := fgets (bufmax - 1) rest
    let buf' := load buf r.1
    if r.2.2 then .dflt
    else match firstIdx ' ' buf' bufmax with
      | none => .oob
      | some n =>
        if cstr buf' n = name then
          match afterEq parse buf' with
          | some v => .value v
          | none => scanNum parse name fuel buf' r.2.1
        else scanNum parse name fuel buf' r.2.1

/-- `ReadInt2`/`ReadDou2` (InputOutput.c:1899-1966, 1972-2038).  `file` is the whole text, `pos`
the unread part when the routine is called; the first action is `rewind`.  `junk` is the
uninitialised line buffer.  The second component is the unread part afterwards (every path
rewinds). -/
def readNum {α : Type*} (parse : List Char → α) (name : List Char) (junk : Nat → Char)
    (file _pos : List Char) : Out α × List Char :=
  (scanNum parse name (file.length + 1) junk file, file)

/-- Inner loop of `ReadMatProps`, over the lines of the phase found (InputOutput.c:2094-2167).
`lineNonEmpty` is the test `strlen(line) > 0`, made on the outer buffer (line 2139).  A matching
line without equal sign leaves the loop with `param1` freed and used again (outcome `freed`),
unless the end of file was hit. -/
def scanPhase {α : Type*} (parse : List Char → α) (name : List Char) (lineNonEmpty : Bool) :
    Nat → (Nat → Char) → List Char → Out α
  | 0, _, _ => .loop
  | fuel + 1, buf, rest =>
    let r := fgets (bufmax - 1) rest
    let buf' := load buf r.1
    match firstIdx ' ' buf' bufmax with
    | none => .oob
    | some n =>
      if cstr buf' n = ['I', 'D'] then .dflt
      else if cstr buf' n = name then
        match firstIdx '=' buf' bufmax, lineNonEmpty with
        | some h, true => .value (parse (cstrFrom buf' (h + 1) bufmax))
        | _, _ => if r.2.2 then .dflt else .freed
      else if r.2.2 then .dflt
      else scanPhase parse name lineNonEmpty fuel buf' r.2.1

/-- Outer loop of `ReadMatProps`, which looks for the line `ID = PhaseID`
(InputOutput.c:2060-2177); `idv` is `ID_value`, uninitialised at first and kept when an ID line has
no equal sign; `junk2` the uninitialised `phase_line`. -/
def scanMat {α : Type*} (atoi : List Char → Int) (parse : List Char → α) (name : List Char)
    (phase : Int) (junk2 : Nat → Char) : Nat → Int → (Nat → Char) → List Char → Out α
  | 0, _, _, _ => .loop
  | fuel + 1, idv, buf, rest =>
    let r := fgets (bufmax - 1) rest
    let buf' := load buf r.1
    if r.2.2 then .exit
    else match firstIdx ' ' buf' bufmax with
      | none => .oob
      | some n =>
        if cstr buf' n = ['I', 'D'] then
          let idv' := (afterEq atoi buf').getD idv
          if idv' = phase then
            scanPhase parse name (decide (buf' 0 ≠ NUL)) (r.2.1.length + 1) junk2 r.2.1
          else scanMat atoi parse name phase junk2 fuel idv' buf' r.2.1
        else scanMat atoi parse name phase junk2 fuel idv buf' r.2.1

/-- `ReadMatProps` (InputOutput.c:2044-2181). The file position left behind is not modelled: the
routine is only followed by readers that rewind (ReadInputFile, InputOutput.c:1252-1420). -/
def readMatProps {α : Type*} (atoi : List Char → Int) (parse : List Char → α) (name : List Char)
    (phase : Int) (junkId : Int) (junk junk2 : Nat → Char) (file : List Char) : Out α :=
  scanMat atoi parse name phase junk2 (file.length + 1) junkId junk file

/-- `isspace` in the C locale (InputOutput.c:1779). -/
def isspace (c : Char) : Bool :=
  c = ' ' || c = '\t' || c = '\n' || c = '\r' || c.toNat = 11 || c.toNat = 12

/-- Size of the line buffer of `ReadChar` (InputOutput.c:1720). -/
def bufmaxC : Nat := 50

/-- Copy of the value in `ReadChar`: up to 30 characters from `s` on, ended by white space
(InputOutput.c:1778-1788).  Reading behind the 50-character buffer is `oob`; thirty characters
without white space or zero byte leave the string unterminated. -/
def copyWord (buf : Nat → Char) : Nat → Nat → List Char → Out (List Char)
  | 0, _, acc => if NUL ∈ acc then .value (acc.reverse.takeWhile fun c => decide (c ≠ NUL))
                 else .unterminated
  | k + 1, s, acc =>
    if bufmaxC ≤ s then .oob
    else if isspace (buf s) then .value (acc.reverse.takeWhile fun c => decide (c ≠ NUL))
    else copyWord buf k (s + 1) (buf s :: acc)

/-- Line loop of `ReadChar` (InputOutput.c:1736-1805): only the first `strlen(FieldName)`
characters of the line are compared.  Result and unread part of the file afterwards (rewound only
when the end of the file was reached, line 1743). -/
def scanChar (name file : List Char) :
    Nat → (Nat → Char) → List Char → Out (List Char) × List Char
  | 0, _, rest => (.loop, rest)
  | fuel + 1, buf, rest =>
    let r := fgets (bufmaxC - 1) rest
    let buf' := load buf r.1
    if r.2.2 then (.dflt, file)
    else if cstr buf' name.length = name then
      match firstIdx '=' buf' bufmaxC with
      | some h => if buf' 0 ≠ NUL then (copyWord buf' 30 (h + 2) [], r.2.1) else (.dflt, r.2.1)
      | none => (.dflt, r.2.1)
    else scanChar name file fuel buf' r.2.1

/-- `ReadChar` (InputOutput.c:1719-1808): starts at the current position of the file, with a
line buffer full of zero bytes. Simplified: names are shorter than the buffer. -/
def readChar (name file pos : List Char) : Out (List Char) × List Char :=
  scanChar name file (pos.length + 1) (fun _ => NUL) pos

end Verif.Input
