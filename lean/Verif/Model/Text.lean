/-!
# Text

Strings are lists of characters. Model of the regular expressions of the form
`\bprefix([class]+)\b` (Python's `re`) used by respy to parse names.
-/

namespace Respy

/-- Strings (`respy/pre_processing/model_processing.py:433-476`). -/
abbrev Str := List Char

/-- The characters matched by `\w`; characters outside ASCII are not modelled
(`respy/pre_processing/model_processing.py:452-454, 473`). -/
def isWordChar (c : Char) : Bool := c.isAlphanum || c = '_'

/-- The characters matched by `[A-Za-z_]` (`respy/pre_processing/model_processing.py:452-454, 473`). -/
def isNameChar (c : Char) : Bool := c.isAlpha || c = '_'

/-- `\b` at a place between two characters (`none` is the beginning or the end of the text)
(`respy/pre_processing/model_processing.py:452-454, 473`). -/
def isBoundary (prev next : Option Char) : Bool :=
  (prev.elim false isWordChar) != (next.elim false isWordChar)

/-- A match of `\bprefix([class]+)\b` at the beginning of `s`, where `prev` is the character before it: the
group and the remaining text. The group is the longest run of characters of the class. A shorter group
is not followed by a boundary, as all characters of the classes used are word characters
(`respy/pre_processing/model_processing.py:452-454, 473`). -/
def matchHere (pre : Str) (cls : Char → Bool) (prev : Option Char) (s : Str) : Option (Str × Str) :=
  if pre.isPrefixOf s && isBoundary prev s.head? then
    let t := s.drop pre.length
    let group := t.takeWhile cls
    let rest := t.dropWhile cls
    if group ≠ [] && isBoundary group.getLast? rest.head? then some (group, rest) else none
  else none

/-- `re.findall(r"\bprefix([class]+)\b", s)`: leftmost matches which do not overlap. The fuel is the number
of characters left (`respy/pre_processing/model_processing.py:452-454`). -/
def findAllFuel (pre : Str) (cls : Char → Bool) : Nat → Option Char → Str → List Str
  | 0, _, _ => []
  | fuel + 1, prev, s =>
    match matchHere pre cls prev s with
    | some (group, rest) => group :: findAllFuel pre cls fuel group.getLast? rest
    | none =>
      match s with
      | [] => []
      | c :: s' => findAllFuel pre cls fuel (some c) s'

/-- `re.findall` (`respy/pre_processing/model_processing.py:452-454`). -/
def findAll (pre : Str) (cls : Char → Bool) (s : Str) : List Str :=
  findAllFuel pre cls (s.length + 1) none s

/-- `Series.str.extract(..., expand=False)` for one text: the first match
(`respy/pre_processing/model_processing.py:423, 473`). -/
def extract (pre : Str) (cls : Char → Bool) (s : Str) : Option Str := (findAll pre cls s).head?

end Respy
