import Verif.Base
import Mathlib.Data.List.Sort
import Mathlib.Data.List.Dedup

/-!
# Model of the `__repr__` of the data classes

`ParticleSet.__repr__` and `Galaxy.__repr__` (data.py) and `Components.__repr__` (_base.py).  How Python
prints a float and how numpy prints an array of labels are parameters (`reprF`, `reprA`).
-/

namespace GChop

variable {F : Type} [Num F]

/-- the character of a decimal digit -/
def digitChar (d : Nat) : Char := Char.ofNat (48 + d)

/-- the decimal digits of a number, most significant first -/
def decimal (n : Nat) : List Char :=
  if n < 10 then [digitChar n] else decimal (n / 10) ++ [digitChar (n % 10)]
termination_by n
decreasing_by omega

/-- `str(n)` of a length -/
def strNat (n : Nat) : String := String.ofList (decimal n)

/-- `str(b)` -/
def strBool (b : Bool) : String := if b then "True" else "False"

/-- `repr(pset)`, data.py:207-212; `reprF` is `str` of a float -/
def ParticleSet.repr (reprF : F → String) (p : ParticleSet F) : String :=
  "ParticleSet(" ++ p.ptype.name ++ ", size=" ++ strNat p.len ++ ", softening=" ++
    reprF p.softening ++ ", potentials=" ++ strBool p.hasPotential ++ ")"

/-- `repr(galaxy)`, data.py:340-346 -/
def Galaxy.repr (g : Galaxy F) : String :=
  let starsRepr := "stars=" ++ strNat g.stars.len
  let dmRepr := "dark_matter=" ++ strNat g.darkMatter.len
  let gasRepr := "gas=" ++ strNat g.gas.len
  let hasPot := "potential=" ++ strBool g.hasPotential
  "Galaxy(" ++ starsRepr ++ ", " ++ dmRepr ++ ", " ++ gasRepr ++ ", " ++ hasPot ++ ")"

/-- the order of `np.sort` on labels: NaN is last -/
def labelLe : Option Int → Option Int → Bool
  | some a, some b => decide (a ≤ b)
  | some _, none => true
  | none, some _ => false
  | none, none => true

/-- `np.unique(labels)`: sorted, without repetitions, NaN at most once (numpy 1.21 or later) -/
def uniqueLabels (l : List (Option Int)) : List (Option Int) :=
  l.dedup.insertionSort fun a b => labelLe a b = true

/-- `repr(components)`, _base.py:87-92; `reprA` is `str` of an array of labels -/
def Components.repr (reprA : List (Option Int) → String) (c : Components F) : String :=
  "Components(" ++ strNat c.len ++ ", labels=" ++ reprA (uniqueLabels c.labels) ++
    ", probabilities=" ++ strBool c.probabilities.isSome ++ ")"

end GChop
