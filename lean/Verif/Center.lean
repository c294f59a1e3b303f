import Verif.Data

/-!
# Model of `galaxychop/utils/_center.py`
-/

namespace GChop
open Pd

variable {F : Type} [Num F]

/-- `df[name] - min_values[name]` for one column, _center.py:56 -/
def subColumn (df : DF F) (row : Dict String (Cell F)) (name : String) : Py (List F) := do
  let col ← df.numCol name
  let v ← Dict.getItem row name
  return col.map (· -. v.toNum)

/-- `ptypev == t.value` for one cell, _center.py:59-61 -/
def isType (t : PType) : Cell F → Bool
  | .int i => i == t.value
  | _ => false

/-- the entries of a column in the rows with the given particle type,
`df[df.ptypev == t.value].x.to_numpy()`, _center.py:59-61 and 67-75 -/
def ofType (types : List (Cell F)) (col : List F) (t : PType) : List F :=
  ((types.zip col).filter fun p => isType t p.1).map (·.2)

/-- `center(galaxy)`, _center.py:26-78. -/
def center (g : Galaxy F) : Py (Galaxy F) := do
  if !g.hasPotential then .error .valueError
  else
    let df ← g.toDataframe none (some ["ptypev", "x", "y", "z", "potential"])
    let idx ← seriesArgmin (← df.numCol "potential")
    let row ← df.iloc idx
    let x ← subColumn df row "x"
    let y ← subColumn df row "y"
    let z ← subColumn df row "z"
    let types ← df.col "ptypev"
    mkgalaxyKw (Dict.update (galaxyAsKwargs g) [
      ("x_s", .arr (ofType types x .stars)),
      ("y_s", .arr (ofType types y .stars)),
      ("z_s", .arr (ofType types z .stars)),
      ("x_dm", .arr (ofType types x .darkMatter)),
      ("y_dm", .arr (ofType types y .darkMatter)),
      ("z_dm", .arr (ofType types z .darkMatter)),
      ("x_g", .arr (ofType types x .gas)),
      ("y_g", .arr (ofType types y .gas)),
      ("z_g", .arr (ofType types z .gas))])

/-- `is_centered(galaxy, rtol, atol)`, _center.py:81-109. -/
def isCentered (g : Galaxy F) (rtol atol : F) : Py Bool := do
  if !g.hasPotential then .error .valueError
  else
    let df ← g.toDataframe none (some ["x", "y", "z", "potential"])
    let idx ← seriesArgmin (← df.numCol "potential")
    let row ← df.iloc idx
    let x ← Dict.getItem row "x"
    let y ← Dict.getItem row "y"
    let z ← Dict.getItem row "z"
    return [x, y, z].all fun c => Np.isclose rtol atol c.toNum (Num.ofRat 0)

end GChop
