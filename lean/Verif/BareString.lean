import Verif.Plot

/-!
# A bare string for `ptypes` or `attributes`

The documentation of `to_dataframe` and of the plots asks for a tuple of names.  The code does not check
it: `name in ptypes` (data.py:376) tests for a substring when `ptypes` is a string, and
`for aname in attributes` (data.py:267) and `list(attributes)` (plot.py:109) run over its characters.
-/

namespace GChop
open Pd

variable {F : Type} [Num F]

/-- an argument that should be a tuple of names -/
inductive NamesArg where
  | names (l : List String)
  | text (s : String)

/-- does the text `b` continue with `a`? -/
def startsWith : List Char → List Char → Bool
  | [], _ => true
  | _ :: _, [] => false
  | a :: as, b :: bs => a == b && startsWith as bs

/-- `a in b` for two strings: look at every place of `b` -/
def substringIn (a : List Char) : List Char → Bool
  | [] => startsWith a []
  | b :: bs => startsWith a (b :: bs) || substringIn a bs

namespace NamesArg

/-- `name in arg` -/
def has (name : String) : NamesArg → Bool
  | .names l => l.contains name
  | .text s => substringIn name.toList s.toList

/-- the values that `for name in arg` runs over -/
def each : NamesArg → List String
  | .names l => l
  | .text s => s.toList.map fun c => String.ofList [c]

end NamesArg

/-- `ParticleSet.to_dataframe(attributes)`, data.py:220-270. -/
def ParticleSet.toDataframeArg (p : ParticleSet F) (attributes : Option NamesArg) : Py (DF F) := do
  let attributes := match attributes with
    | none => Dict.keys (columnsMakers p)
    | some a => a.each
  let d ← collectColumns (columnsMakers p) attributes []
  ofDict d

namespace Galaxy

/-- the loop over the three particle sets, data.py:372-378 -/
def partsArg (ptypes attributes : Option NamesArg) : List (ParticleSet F) → Py (List (DF F))
  | [] => .ok []
  | p :: ps =>
    let included := match ptypes with
      | none => true
      | some a => a.has p.ptype.humanize
    if included then do
      let df ← p.toDataframeArg attributes
      let rest ← partsArg ptypes attributes ps
      return df :: rest
    else partsArg ptypes attributes ps

/-- `Galaxy.to_dataframe(ptypes, attributes)`, data.py:350-380. -/
def toDataframeArg (g : Galaxy F) (ptypes attributes : Option NamesArg) : Py (DF F) := do
  let ps ← partsArg ptypes attributes [g.stars, g.darkMatter, g.gas]
  concatRows ps

end Galaxy

/-- the attribute list and the hue, plot.py:97-109; without a label column the argument itself is passed
on -/
def hueAttributesArg (attributes : NamesArg) : PlotLabels F → NamesArg × Option String
  | .attr s => (.names (npUnique (attributes.each ++ [s])), some s)
  | _ => (attributes, none)

/-- `get_df_and_hue`, plot.py:74-126 -/
def getDfAndHueArg (g : Galaxy F) (ptypes attributes : Option NamesArg) (labels : PlotLabels F)
    (lmap : Option (LMap F)) : Py (DF F × Option String) := do
  let labels := labels.extract
  let ah := hueAttributesArg (attributes.getD (.names ["x", "y", "z"])) labels
  let df ← g.toDataframeArg ptypes (some ah.1)
  let dh ← insertLabels df ah.2 labels
  let df ← relabel dh.1 dh.2 lmap
  return (df, dh.2)

end GChop
