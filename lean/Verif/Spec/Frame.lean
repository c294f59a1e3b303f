import Verif.Spec.Bodies

/-!
# What a data frame of a galaxy must contain

A table row is a particle with the type, softening and potential flag of its set.  `attrTable` says
what each attribute name means for one particle.
-/

namespace GChop
open Pd

variable {F : Type} [Num F]

/-- A particle together with what it shares with its set. -/
structure Row (F : Type) where
  t : PType
  soft : F
  hasPot : Bool
  body : Body F

/-- The meaning of every attribute name for one particle. -/
def attrTable : List (String × (Row F → Cell F)) :=
  [ ("ptype", fun r => .str r.t.humanize),
    ("ptypev", fun r => .int r.t.value),
    ("m", fun r => .num r.body.m),
    ("x", fun r => .num r.body.x),
    ("y", fun r => .num r.body.y),
    ("z", fun r => .num r.body.z),
    ("vx", fun r => .num r.body.vx),
    ("vy", fun r => .num r.body.vy),
    ("vz", fun r => .num r.body.vz),
    ("softening", fun r => .num r.soft),
    ("potential", fun r => if r.hasPot then .num r.body.pot else .num Num.nan),
    ("kinetic_energy", fun r => .num r.body.kinetic),
    ("total_energy", fun r => if r.hasPot then .num r.body.energy else .num Num.nan),
    ("Jx", fun r => .num r.body.jx),
    ("Jy", fun r => .num r.body.jy),
    ("Jz", fun r => .num r.body.jz) ]

/-- all attribute names, in the order of the full frame -/
def attrNames : List String :=
  ["ptype", "ptypev", "m", "x", "y", "z", "vx", "vy", "vz", "softening", "potential",
   "kinetic_energy", "total_energy", "Jx", "Jy", "Jz"]

/-- the cell of attribute `a` for one particle (NaN for unknown names, which never get that far) -/
def Row.cell (r : Row F) (a : String) : Cell F :=
  match attrTable.find? (fun kv => kv.1 == a) with
  | some kv => kv.2 r
  | none => .num Num.nan

/-- attributes that the class stores as one number per set instead of an array -/
def scalarAttr (hasPot : Bool) (a : String) : Bool :=
  a == "softening" || (!hasPot && (a == "potential" || a == "total_energy"))

/-- distinct names in order of first occurrence -/
def distinct (l : List String) : List String :=
  l.foldl (fun acc a => if acc.contains a then acc else acc ++ [a]) []

/-- the rows of one set -/
def BSet.rows (t : PType) (s : BSet F) : List (Row F) := s.bodies.map (⟨t, s.soft, s.hasPot, ·⟩)

namespace BGalaxy
/-- is the type selected by the `ptypes` argument? -/
def selected (ptypes : Option (List String)) (t : PType) : Bool :=
  match ptypes with
  | none => true
  | some l => l.contains t.humanize

/-- the particles of the selected types: stars, dark matter, gas, each in its own order -/
def rows (g : BGalaxy F) (ptypes : Option (List String)) : List (Row F) :=
  (if selected ptypes .stars then g.sSet.rows .stars else []) ++
  (if selected ptypes .darkMatter then g.dmSet.rows .darkMatter else []) ++
  (if selected ptypes .gas then g.gSet.rows .gas else [])

/-- some type is selected -/
def someSelected (ptypes : Option (List String)) : Bool :=
  PType.members.any (selected ptypes)
end BGalaxy

/-- the table with the given columns over the given rows -/
def tableOf (rows : List (Row F)) (attrs : List String) : DF F :=
  if attrs = [] then ⟨[], 0⟩
  else ⟨attrs.map fun a => (a, rows.map fun r => r.cell a), rows.length⟩

end GChop
