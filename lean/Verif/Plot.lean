import Mathlib.Data.List.Sort
import Verif.Base

/-!
# Model of `galaxychop/plot.py`

Not modelled: what seaborn does with the data (its functions are called at the end of every plot
method, and the model stops at the call), `**kwargs` binding, labels that are neither `None`, a
string, an array nor a `Components`, and `lmap` values that are neither a dictionary nor a function of
one value.
-/

namespace GChop
open Pd

variable {F : Type} [Num F]

/-! ## Dispatch -/

/-- the names of the class that do not start with an underscore, all of them methods, plot.py:34-562 -/
def plotterPublic : List String :=
  ["get_df_and_hue", "pairplot", "scatter", "hist", "kde", "get_circ_df_and_hue", "circ_pairplot",
   "circ_scatter", "circ_hist", "circ_kde"]

/-- `_P_KIND_FORBIDEN_METHODS`, plot.py:38 -/
def plotForbidden : List String := ["get_df_and_hue", "get_circ_df_and_hue"]

/-- `plot_kind.startswith("_")` -/
def startsUnderscore (s : String) : Bool := s.toList.head? == some '_'

/-- `GalaxyPlotter.__call__`, plot.py:44-70.  `attrs` is the lookup of `getattr` with default `None`:
`none` for a missing or not callable attribute. -/
def plotCallWith {K R : Type} (attrs : String → Option (K → Py R)) (kind : String) (kwargs : K) :
    Py R :=
  if startsUnderscore kind || plotForbidden.contains kind then .error .valueError
  else
    match attrs kind with
    | some method => method kwargs
    | none => .error .valueError

/-- the attributes of a plotter; `methods` says what the methods do and `hidden` what there is under
the names with an underscore -/
def plotterAttrs {K R : Type} (methods : String → K → Py R) (hidden : String → Option (K → Py R))
    (name : String) : Option (K → Py R) :=
  if startsUnderscore name then hidden name
  else if plotterPublic.contains name then some (methods name) else none

/-- `galaxy.plot(kind, **kwargs)` -/
def plotCall {K R : Type} (methods : String → K → Py R) (hidden : String → Option (K → Py R))
    (kind : String) (kwargs : K) : Py R :=
  plotCallWith (plotterAttrs methods hidden) kind kwargs

/-! ## Data frames -/

/-- the `labels` argument -/
inductive PlotLabels (F : Type) where
  | none
  | attr (name : String)
  | arr (l : List (Cell F))
  | comps (c : Components F)

/-- the `lmap` argument -/
inductive LMap (F : Type) where
  | dict (d : List (Cell F × Cell F))
  | func (f : Cell F → Py (Cell F))

/-- `a == b` for two values in a frame (NaN is not equal to itself, `1 == 1.0`) -/
def cellEq : Cell F → Cell F → Bool
  | .num x, .num y => x ==. y
  | .int i, .int j => i == j
  | .num x, .int j => x ==. Num.ofInt j
  | .int i, .num y => Num.ofInt i ==. y
  | .str s, .str t => s == t
  | _, _ => false

/-- `lmap_func`, plot.py:121-123 and 363-365 -/
def LMap.apply : LMap F → Cell F → Py (Cell F)
  | .dict d, c => .ok (((d.find? fun kv => cellEq kv.1 c).map (·.2)).getD c)
  | .func f, c => f c

/-- `labels.labels` of a `Components`, plot.py:97-98 and 321-322 -/
def PlotLabels.extract : PlotLabels F → PlotLabels F
  | .comps c => .arr (c.labels.map Components.labelCell)
  | l => l

/-- `np.unique` of a list of strings -/
def npUnique (l : List String) : List String :=
  l.dedup.insertionSort fun a b => a.toList ≤ b.toList

/-- the attribute list and the hue before the frame is built, plot.py:102-109 and 336-342 -/
def hueAttributes (attributes : List String) : PlotLabels F → List String × Option String
  | .attr s => (npUnique (attributes ++ [s]), some s)
  | _ => (attributes, none)

/-- the renaming of labels, plot.py:120-124 and 362-366; the empty string is not a hue -/
def relabel (df : DF F) (hue : Option String) (lmap : Option (LMap F)) : Py (DF F) :=
  match hue, lmap with
  | some h, some m =>
    if h == "" then .ok df
    else do
      let col ← df.col h
      let col ← col.mapM m.apply
      return ⟨Dict.set df.cols h col, df.nrows⟩
  | _, _ => .ok df

/-- `df.insert(0, "Labels", labels)` for labels that are an array, plot.py:116-118 and 350-360 -/
def insertLabels (df : DF F) (hue : Option String) : PlotLabels F → Py (DF F × Option String)
  | .arr l =>
    if hue.isNone then do
      let df ← df.insertFront "Labels" l
      return (df, some "Labels")
    else .ok (df, hue)
  | _ => .ok (df, hue)

/-- `get_df_and_hue`, plot.py:74-126 -/
def getDfAndHue (g : Galaxy F) (ptypes attributes : Option (List String)) (labels : PlotLabels F)
    (lmap : Option (LMap F)) : Py (DF F × Option String) := do
  let labels := labels.extract
  let ah := hueAttributes (attributes.getD ["x", "y", "z"]) labels
  let df ← g.toDataframe ptypes (some ah.1)
  let dh ← insertLabels df ah.2 labels
  let df ← relabel dh.1 dh.2 lmap
  return (df, dh.2)

/-- `labels[np.isfinite(labels)]`, plot.py:355-356 -/
def finiteLabels (l : List (Cell F)) : Py (List (Cell F)) := do
  let m ← l.mapM Cell.isfinite
  Np.compress m l

/-- the loop of plot.py:344-346 -/
def circColumns (d : Dict String (List F)) (mask : List Bool) :
    List String → Dict String (Col F) → Py (Dict String (Col F))
  | [], acc => .ok acc
  | a :: as, acc => do
    let l ← Dict.getItem d a
    let l ← Np.compress mask l
    circColumns d mask as (Dict.set acc a (.arr (l.map .num)))

/-- the labels of a circularity plot: only the finite ones -/
def circLabels : PlotLabels F → Py (PlotLabels F)
  | .arr l => do return .arr (← finiteLabels l)
  | l => .ok l

/-- `get_circ_df_and_hue`, plot.py:292-368 -/
def getCircDfAndHue (env : CircEnv F) (g : Galaxy F) (cbins : F × F)
    (attributes : Option (List String)) (labels : PlotLabels F) (lmap : Option (LMap F)) :
    Py (DF F × Option String) := do
  let labels := labels.extract
  let j ← jcirc env g cbins.1 cbins.2
  let mask ← j.isfinite
  let ah := hueAttributes (attributes.getD (Dict.keys j.asDict)) labels
  let cols ← circColumns j.asDict mask ah.1 []
  let df ← ofDict cols
  let labels ← circLabels labels
  let dh ← insertLabels df ah.2 labels
  let df ← relabel dh.1 dh.2 lmap
  return (df, dh.2)

/-! ## Plot methods -/

/-- A call of a seaborn function: its name, the axes it was told, the data, the hue and the other
keyword arguments. -/
structure SnsCall (F K : Type) where
  fn : String
  x : Option String
  y : Option String
  data : DF F
  hue : Option String
  kwargs : Dict String K

/-- `sns.fn(..., data=df, hue=hue, **kwargs)`: `TypeError` if `kwargs` repeats an argument -/
def snsCall {K : Type} (fn : String) (x y : Option String) (dh : DF F × Option String)
    (kwargs : Dict String K) : Py (SnsCall F K) :=
  if (Dict.keys kwargs).any (fun k => k == "data" || k == "hue") then .error .typeError
  else .ok ⟨fn, x, y, dh.1, dh.2, kwargs⟩

/-- `kwargs.setdefault(k, v)` -/
def setDefault {K : Type} (d : Dict String K) (k : String) (v : K) : Dict String K :=
  if (Dict.keys d).contains k then d else Dict.set d k v

/-- `attributes = [x] if y is None else [x, y]`, plot.py:241, 280, 503 and 554 -/
def axes (x : String) : Option String → List String
  | none => [x]
  | some y => [x, y]

/-- `pairplot`, plot.py:128-173; `str` turns a string into a keyword value -/
def plotPairplot {K : Type} (str : String → K) (g : Galaxy F)
    (ptypes attributes : Option (List String)) (labels : PlotLabels F) (lmap : Option (LMap F))
    (kwargs : Dict String K) : Py (SnsCall F K) := do
  let dh ← getDfAndHue g ptypes attributes labels lmap
  let kwargs := setDefault kwargs "kind" (str "hist")
  let kwargs := setDefault kwargs "diag_kind" (str "kde")
  snsCall "pairplot" none none dh kwargs

/-- `scatter`, `hist` and `kde`, plot.py:175-288; `y` is required by `scatter` -/
def plotXY {K : Type} (fn : String) (g : Galaxy F) (x : String) (y : Option String)
    (ptypes : Option (List String)) (labels : PlotLabels F) (lmap : Option (LMap F))
    (kwargs : Dict String K) : Py (SnsCall F K) := do
  let dh ← getDfAndHue g ptypes (some (axes x y)) labels lmap
  snsCall fn (some x) y dh kwargs

/-- `circ_pairplot`, plot.py:370-418 -/
def plotCircPairplot {K : Type} (str : String → K) (env : CircEnv F) (g : Galaxy F) (cbins : F × F)
    (attributes : Option (List String)) (labels : PlotLabels F) (lmap : Option (LMap F))
    (kwargs : Dict String K) : Py (SnsCall F K) := do
  let dh ← getCircDfAndHue env g cbins attributes labels lmap
  let kwargs := setDefault kwargs "kind" (str "hist")
  let kwargs := setDefault kwargs "diag_kind" (str "kde")
  snsCall "pairplot" none none dh kwargs

/-- `circ_scatter`, `circ_hist` and `circ_kde`, plot.py:420-562 -/
def plotCircXY {K : Type} (fn : String) (env : CircEnv F) (g : Galaxy F) (cbins : F × F) (x : String)
    (y : Option String) (labels : PlotLabels F) (lmap : Option (LMap F)) (kwargs : Dict String K) :
    Py (SnsCall F K) := do
  let dh ← getCircDfAndHue env g cbins (some (axes x y)) labels lmap
  snsCall fn (some x) y dh kwargs

end GChop
