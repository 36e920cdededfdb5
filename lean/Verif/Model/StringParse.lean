/-!
The position of a syntax error in a configuration file.

* cpp/common/include/stringparse.h: `extract_substr_at_pos` 8-16, `extract_line_no` 19-34

Texts are shorter than 2^31 characters. `boost::erase_all` with an empty search string does nothing.
-/
namespace Verif.StringParse

abbrev Text := List Char

/-- `input.find_first_of("\n", pos)` for a text whose first character has index `i`; `none` is `npos`. -/
def findFrom (pos : Nat) : Nat → Text → Option Nat
  | _, [] => none
  | i, c :: l => if c = '\n' ∧ pos ≤ i then some i else findFrom pos (i + 1) l

/-- `input.find_last_of("\n", pos)`. -/
def findBack (pos : Nat) : Nat → Text → Option Nat
  | _, [] => none
  | i, c :: l =>
    match findBack pos (i + 1) l with
    | some j => some j
    | none => if c = '\n' ∧ i ≤ pos then some i else none

/-- The conversion of a `size_t` to `int`: `npos` becomes -1. -/
def toInt : Option Nat → Int
  | some i => i
  | none => -1

/-- `input.substr(start, count)` with arguments converted to `size_t`: negative ones become larger than any text. `none` is
the exception `out_of_range`. -/
def substr (s : Text) (start count : Int) : Option Text :=
  if start < 0 ∨ (s.length : Int) < start then none
  else if count < 0 then some (s.drop start.toNat)
  else some ((s.drop start.toNat).take count.toNat)

def extractSubstr (s : Text) (pos limit : Nat) : Option Text :=
  let following : Int := min (pos + limit) (toInt (findFrom pos 0 s))
  let preceding : Int := min (pos - limit) (toInt (findBack pos 0 s))
  substr s (preceding + 1) (following - preceding - 1)

/-- The loop of lines 27-30, from the newline found at `p`; `fuel` bounds the number of rounds. -/
def lineLoop (s : Text) (pos : Nat) : Nat → Option Nat → Nat → Nat
  | 0, _, n => n
  | _ + 1, none, n => n
  | fuel + 1, some p, n => if p < pos then lineLoop s pos fuel (findFrom (p + 1) 0 s) (n + 1) else n

/-- Each round moves on by a character at least, so the length of the text is enough fuel. -/
def extractLineNo (s : Text) (pos : Nat) : Nat := lineLoop s pos (s.length + 1) (findFrom 0 0 s) 1

end Verif.StringParse
