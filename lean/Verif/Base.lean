import Verif.Circ

/-!
# Model of `galaxychop/models/_base.py`

`Components.__repr__` is in `Verif/Repr.lean`, the constructors are in `Verif/Models.lean`.  Not modelled:
the docstring decorators.  Probability arrays are two-dimensional, which is what every decomposer of the
package returns.
-/

namespace GChop
open Pd

variable {F : Type} [Num F]

/-- A two-dimensional array; the width is part of the shape even if there are no rows. -/
structure Mat (F : Type) where
  rows : List (List F)
  width : Nat
  deriving DecidableEq

/-- every row has the width of the shape -/
def Mat.WF (m : Mat F) : Prop := ∀ r ∈ m.rows, r.length = m.width

/-- `_PTYPES_ORDER`, _base.py:33 -/
def ptypesOrder : List String := PType.members.map PType.humanize

/-- `Components`, _base.py:41-68.  A label is an integer or NaN (`none`). -/
structure Components (F : Type) where
  labels : List (Option Int)
  ptypes : List String
  probabilities : Option (Mat F)
  deriving DecidableEq

namespace Components

/-- the lengths compared in `__attrs_post_init__`, _base.py:77-79 -/
def lens (labels : List (Option Int)) (ptypes : List String) : Option (Mat F) → List Nat
  | some p => [labels.length, ptypes.length, p.rows.length]
  | none => [labels.length, ptypes.length]

/-- `Components(labels, ptypes, probabilities)` with the check of `__attrs_post_init__`,
_base.py:70-81.  The arguments are arrays, so the type validators of lines 63-68 hold. -/
def new (labels : List (Option Int)) (ptypes : List String) (probs : Option (Mat F)) :
    Py (Components F) :=
  if (lens labels ptypes probs).eraseDups.length > 1 then .error .valueError
  else .ok ⟨labels, ptypes, probs⟩

/-- `len(components)`, _base.py:83-85 -/
def len (c : Components F) : Nat := c.labels.length

/-- the float stored for a label -/
def labelCell : Option Int → Cell F
  | some i => .num (Num.ofInt i)
  | none => .num Num.nan

/-- `columns_makers`, _base.py:105-108 -/
def columnsMakers (c : Components F) : Dict String (Col F) :=
  [("labels", .arr (c.labels.map labelCell)), ("ptypes", .arr (c.ptypes.map .str))]

/-- `pd.DataFrame(self.probabilities)` with the columns renamed to `probs_0`, `probs_1`, ...,
_base.py:121-122 -/
def probsDF (p : Mat F) : DF F :=
  ⟨(List.range p.width).map fun c =>
      ("probs_" ++ toString c, p.rows.map fun r => .num (r.getD c Num.nan)), p.rows.length⟩

/-- the loop of _base.py:118-125: the columns collected so far and the probability frame -/
def collect (c : Components F) :
    List String → Dict String (Col F) → Option (DF F) → Py (Dict String (Col F) × Option (DF F))
  | [], d, p => .ok (d, p)
  | a :: as, d, p =>
    if a == "probabilities" then
      match c.probabilities with
      | some m => collect c as d (some (probsDF m))
      | none => collect c as d p
    else do
      let col ← Dict.getItem (columnsMakers c) a
      collect c as (Dict.set d a col) p

/-- `Components.to_dataframe(attributes)`, _base.py:94-132 -/
def toDataframe (c : Components F) (attributes : Option (List String)) : Py (DF F) := do
  let attributes := attributes.getD (Dict.keys (columnsMakers c) ++ ["probabilities"])
  let (d, p) ← collect c attributes [] none
  let df ← ofDict d
  match p with
  | some p => concatCols [df, p]
  | none => return df

end Components

/-- The Python values that the validator of `cbins` distinguishes. -/
inductive PyVal (F : Type) where
  | float (x : F)
  | int (i : Int)
  | bool (b : Bool)
  | str (s : String)
  | none
  | tuple (l : List (PyVal F))
  | list (l : List (PyVal F))
  | other

/-- `isinstance(v, float)` -/
def PyVal.isFloat : PyVal F → Bool
  | .float _ => true
  | _ => false

/-- `_bins_validator`, _base.py:188-196; the two widths of an accepted value -/
def cbinsValidator (v : PyVal F) : Py Unit :=
  match v with
  | .tuple l =>
    if l.length = 2 && (l.getD 0 .other).isFloat && (l.getD 1 .other).isFloat then .ok ()
    else .error .valueError
  | _ => .error .valueError

/-- `jcirc.as_dict()` with `jcirc["ptypev"] = STARS.value`, _base.py:304-308 -/
def jcircMakers (j : JCirc F) : Dict String (Col F) :=
  Dict.set (j.asDict.map fun kv => (kv.1, Col.arr (kv.2.map .num))) "ptypev"
    (.scalar (.int PType.stars.value))

/-- columns of a set without circularity: NaN for every attribute, then `ptypev`, _base.py:312-318
and 321-327 -/
def nanColumns (rows : Nat) (t : PType) (attributes : List String) : Dict String (Col F) :=
  let d := attributes.foldl
    (fun d a => Dict.set d a (Col.arr (List.replicate rows (.num Num.nan)))) []
  Dict.set d "ptypev" (.scalar (.int t.value))

/-- `_get_jcirc_df`, _base.py:299-329 -/
def getJcircDf (env : CircEnv F) (cbins : F × F) (g : Galaxy F) (attributes : List String) :
    Py (DF F) := do
  let j ← jcirc env g cbins.1 cbins.2
  let starCols ← ParticleSet.collectColumns (jcircMakers j) attributes []
  let starsDf ← ofDict starCols
  let dmDf ← ofDict (nanColumns g.darkMatter.len .darkMatter attributes)
  let gasDf ← ofDict (nanColumns g.gas.len .gas attributes)
  concatRows [starsDf, dmDf, gasDf]

/-- the attributes of `to_dataframe` plus `ptypev`, _base.py:354-362 and 374-375 -/
def dfAttrs (attributes : List String) : List String :=
  let l := attributes.filter fun a => !circularityAttributes.contains a
  if l.contains "ptypev" then l else l ++ ["ptypev"]

/-- the circularity attributes plus `ptypev`, _base.py:354-362 and 387 -/
def circAttrs (attributes : List String) : List String :=
  attributes.filter (fun a => circularityAttributes.contains a) ++ ["ptypev"]

/-- the frame of `to_dataframe`, if any of its attributes is asked for, _base.py:370-380 -/
def particleFrame (g : Galaxy F) (attributes : List String) : Py (List (DF F)) :=
  if attributes.any (fun a => !circularityAttributes.contains a) then do
    let df ← g.toDataframe (some ptypesOrder) (some (dfAttrs attributes))
    .ok [df]
  else .ok []

/-- the frame of circularities, if any of its attributes is asked for, _base.py:386-389 -/
def circFrame (env : CircEnv F) (cbins : F × F) (g : Galaxy F) (attributes : List String) :
    Py (List (DF F)) :=
  if attributes.any (fun a => circularityAttributes.contains a) then do
    let df ← getJcircDf env cbins g (circAttrs attributes)
    .ok [df]
  else .ok []

/-- `attributes_matrix`, _base.py:331-403: `X` as a list of rows, and `y` -/
def attributesMatrix (env : CircEnv F) (cbins : F × F) (g : Galaxy F) (attributes : List String) :
    Py (List (List (Cell F)) × List (Cell F)) := do
  let r1 ← particleFrame g attributes
  let r2 ← circFrame env cbins g attributes
  let df ← concatCols (r1 ++ r2)
  let df := df.dropDupCols
  let cols ← df.select attributes
  let y ← df.col "ptypev"
  return (rowsOf df.nrows cols, y)

/-- `complete_labels`, _base.py:405-435; `n` is `len(X)` -/
def completeLabels (n : Nat) (labels : List Int) (mask : List Bool) : Py (List (Option Int)) :=
  Np.assignMask (List.replicate n none) mask (labels.map some)

/-- `complete_probs`, _base.py:437-485 -/
def completeProbs (n : Nat) (probs : Option (Mat F)) (mask : List Bool) : Py (Option (Mat F)) :=
  match probs with
  | none => .ok none
  | some p => do
    let rows ← Np.assignMask (List.replicate n (List.replicate p.width Num.nan)) mask p.rows
    return some ⟨rows, p.width⟩

/-- `np.isfinite` of one cell; `TypeError` for a string (an object array) -/
def Cell.isfinite : Cell F → Py Bool
  | .num x => .ok (Num.isFinite x)
  | .int _ => .ok true
  | .str _ => .error .typeError

/-- `np.equal(y, STARS.value)` of one cell -/
def Cell.isStar : Cell F → Bool
  | .int i => i == PType.stars.value
  | .num x => x ==. Num.ofInt PType.stars.value
  | .str _ => false

/-- `DynamicStarsDecomposerMixin.get_rows_mask`, _base.py:547-558 -/
def starsRowsMask (X : List (List (Cell F))) (y : List (Cell F)) : Py (List Bool) := do
  let fin ← X.mapM fun row => do return (← row.mapM Cell.isfinite).all id
  Np.bcast (· && ·) (y.map Cell.isStar) fin

/-- `ParticleSetType.mktype(yi).humanize()`, _base.py:521-523 -/
def humanizeCell : Cell F → Py String
  | .int i => do return (← PType.mktype id (.num i)).humanize
  | _ => .error .valueError

/-- A decomposer: what `GalaxyDecomposerABC` leaves to its subclasses, _base.py:236-284.  `split`
receives the float matrix of the selected rows. -/
structure Decomposer (F : Type) where
  attributes : List String
  rowsMask : List (List (Cell F)) → List (Cell F) → Py (List Bool)
  split : List (List F) → List (Cell F) → Py (List Int × Option (Mat F))

/-- `decompose`, _base.py:487-531 -/
def decompose (env : CircEnv F) (cbins : F × F) (dec : Decomposer F) (g : Galaxy F) :
    Py (Components F) := do
  let (X, y) ← attributesMatrix env cbins g dec.attributes
  let mask ← dec.rowsMask X y
  let xClean ← Np.compress mask X
  let yClean ← Np.compress mask y
  let (labels, probs) ← dec.split (xClean.map fun r => r.map Cell.toNum) yClean
  let finalLabels ← completeLabels X.length labels mask
  let finalProbs ← completeProbs X.length probs mask
  let finalY ← y.mapM humanizeCell
  Components.new finalLabels finalY finalProbs

end GChop
