import Verif.Data

/-!
# `str.upper` on all strings

Python maps each character of a string by the upper-case table of Unicode, which may give more than one
character.  `mktype` (data.py:42-52) compares the result with three names, so only the characters whose
upper-case form consists of characters of these names matter.  `UpperTable` says which they are; the list
was read off the Unicode data of Python 3.11.
-/

namespace GChop

/-- the characters of the names of the particle types -/
def nameLetters : List Char := ['A', 'D', 'E', 'G', 'K', 'M', 'R', 'S', 'T', '_']

/-- the characters whose upper-case form consists of characters of the names, with that form: the letters,
the long s, the ligatures of long s and t and of s and t, and the sharp s -/
def upperEntries : List (Char × List Char) :=
  [('A', ['A']), ('D', ['D']), ('E', ['E']), ('G', ['G']), ('K', ['K']), ('M', ['M']), ('R', ['R']),
   ('S', ['S']), ('T', ['T']), ('_', ['_']), ('a', ['A']), ('d', ['D']), ('e', ['E']), ('g', ['G']),
   ('k', ['K']), ('m', ['M']), ('r', ['R']), ('s', ['S']), ('t', ['T']), ('ſ', ['S']), ('ﬅ', ['S', 'T']),
   ('ﬆ', ['S', 'T']), ('ß', ['S', 'S'])]

/-- `f` maps characters to strings that are not empty, and the characters mapped to strings over `A` are
those of the list `T` -/
structure CharTable (f : Char → List Char) (A : List Char) (T : List (Char × List Char)) : Prop where
  known : ∀ e ∈ T, f e.1 = e.2
  only : ∀ c, (∀ k ∈ f c, k ∈ A) → (c, f c) ∈ T
  pos : ∀ c, f c ≠ []

/-- what is assumed of the upper-case table of Unicode -/
def UpperTable (up : Char → List Char) : Prop := CharTable up nameLetters upperEntries

/-- `s.upper()` -/
def pyUpper (up : Char → List Char) (s : String) : String := String.ofList (s.toList.flatMap up)

end GChop
