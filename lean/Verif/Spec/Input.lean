import Mathlib.Tactic.TypeStar

/-
What a user means by an input file: a list of lines, each with a key (the text before the first
blank) and a value (the text behind the first equal sign); the lookup of a parameter by its key;
the block of lines that belongs to one phase.
-/
namespace Verif.Input.Spec

/-- A text file made of newline-terminated lines. -/
def text (lines : List (List Char)) : List Char := lines.flatMap fun l => l ++ ['\n']

/-- Key of a line: everything before the first blank. -/
def key (line : List Char) : List Char := line.takeWhile fun c => decide (c ≠ ' ')

/-- Text behind the first equal sign of a line, up to and including the newline. -/
def valueText (line : List Char) : List Char :=
  ((line.dropWhile fun c => decide (c ≠ '=')).drop 1) ++ ['\n']

/-- Value on the first line with exactly that key, if there is one. -/
def lookup {α : Type*} (parse : List Char → α) (name : List Char) (lines : List (List Char)) :
    Option α :=
  (lines.find? fun l => decide (key l = name)).map fun l => parse (valueText l)

/-- The lines of the block of phase `i`: those behind the first line `ID = i`, up to the next ID
line; `none` if the file has no such block. -/
def block (atoi : List Char → Int) (i : Int) : List (List Char) → Option (List (List Char))
  | [] => none
  | l :: ls =>
    if key l = ['I', 'D'] ∧ atoi (valueText l) = i then
      some (ls.takeWhile fun l' => decide (key l' ≠ ['I', 'D']))
    else block atoi i ls

/-- A usual line: empty, or at most `n` printable characters with a blank somewhere behind the
second character (as every `key = value` line and every comment in words has). -/
def Usual (n : Nat) (l : List Char) : Prop :=
  l.length ≤ n ∧ '\n' ∉ l ∧ Char.ofNat 0 ∉ l ∧ (l = [] ∨ ∃ i, 2 ≤ i ∧ l[i]? = some ' ')

end Verif.Input.Spec
