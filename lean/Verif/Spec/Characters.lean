import Verif.Model.Text

/-!
# The characters of names and levels

The alphabets of the documentation, as lists, independent of the regular expressions of the code.
-/

namespace Respy

/-- Letters and the underscore. -/
def nameCharacters : Str := "ABCDEFGHIJKLMNOPQRSTUVWXYZabcdefghijklmnopqrstuvwxyz_".toList

/-- Letters, digits and the underscore. -/
def wordCharacters : Str := "ABCDEFGHIJKLMNOPQRSTUVWXYZabcdefghijklmnopqrstuvwxyz0123456789_".toList

/-- Lower-case letters, digits and the underscore, the characters of levels. -/
def levelCharacters : Str := "abcdefghijklmnopqrstuvwxyz0123456789_".toList

/-- `w` is a word of the text `s`: no letter, digit or underscore stands directly before or after it. -/
def WordOf (w s : Str) : Prop :=
  ∃ a b, s = a ++ w ++ b ∧ (∀ c, a.getLast? = some c → c ∉ wordCharacters) ∧
    ∀ c, b.head? = some c → c ∉ wordCharacters

end Respy
