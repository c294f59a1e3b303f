import Verif.Np

/-!
# The pandas operations used by the package

A data frame is a list of named columns of equal length plus the number of rows.  The index is not
modelled: in every frame of the package it is the range `0..n-1`, or the result of a row selection
whose index is not used afterwards.
-/

namespace GChop.Pd
open GChop

variable {F : Type} [Num F]

/-- One cell: a float, an integer (`ptypev`, `id`) or a string (`ptype`). -/
inductive Cell (F : Type) where
  | num (x : F)
  | int (i : Int)
  | str (s : String)
  deriving DecidableEq, Repr

/-- A column value handed to `pd.DataFrame`: an array or a scalar. -/
inductive Col (F : Type) where
  | arr (l : List (Cell F))
  | scalar (c : Cell F)

/-- A data frame. -/
structure DF (F : Type) where
  cols : Dict String (List (Cell F))
  nrows : Nat
  deriving DecidableEq

/-- lengths of the array columns -/
def arrLens : List (String × Col F) → List Nat
  | [] => []
  | (_, .arr l) :: t => l.length :: arrLens t
  | (_, .scalar _) :: t => arrLens t

/-- expand one column to `n` rows -/
def expand (n : Nat) : Col F → List (Cell F)
  | .arr l => l
  | .scalar c => List.replicate n c

/-- `pd.DataFrame(dict)`: scalars are broadcast to the common length of the arrays.  `ValueError`
if the arrays have different lengths or if the dict is not empty and has only scalars ("If using
all scalar values, you must pass an index"). -/
def ofDict (d : Dict String (Col F)) : Py (DF F) :=
  match arrLens d with
  | [] => if d.isEmpty then .ok ⟨[], 0⟩ else .error .valueError
  | n :: ns =>
    if ns.all (· == n) then .ok ⟨d.map fun kv => (kv.1, expand n kv.2), n⟩
    else .error .valueError

/-- `df[name]` -/
def DF.col (df : DF F) (name : String) : Py (List (Cell F)) := Dict.getItem df.cols name

/-- `names` of several frames in order of first appearance (the outer join of `pd.concat`). -/
def unionNames (dfs : List (DF F)) : List String :=
  dfs.foldl (fun acc df => acc ++ (Dict.keys df.cols).filter (fun k => !acc.contains k)) []

/-- the cells of one column of one frame; NaN where the frame lacks the column -/
def colOrNaN (df : DF F) (name : String) : List (Cell F) :=
  (Dict.get? df.cols name).getD (List.replicate df.nrows (.num Num.nan))

/-- `pd.concat(dfs, ignore_index=True)` (rows).  `ValueError` on an empty list. -/
def concatRows (dfs : List (DF F)) : Py (DF F) :=
  if dfs.isEmpty then .error .valueError
  else .ok ⟨(unionNames dfs).map fun k => (k, dfs.flatMap fun df => colOrNaN df k),
            (dfs.map (·.nrows)).sum⟩

/-- fill a column with NaN up to `n` rows -/
def padTo (n : Nat) (l : List (Cell F)) : List (Cell F) :=
  l ++ List.replicate (n - l.length) (.num Num.nan)

/-- `pd.concat(dfs, axis=1)` of frames with range indices: columns side by side (names may repeat),
shorter frames are filled with NaN.  `ValueError` on an empty list. -/
def concatCols (dfs : List (DF F)) : Py (DF F) :=
  if dfs.isEmpty then .error .valueError
  else
    let n := (dfs.map (·.nrows)).foldl Nat.max 0
    .ok ⟨dfs.flatMap fun df => df.cols.map fun kv => (kv.1, padTo n kv.2), n⟩

/-- keep the first occurrence of every key -/
def dedupKeys {β : Type} : List String → List (String × β) → List (String × β)
  | _, [] => []
  | seen, (k, v) :: t =>
    if seen.contains k then dedupKeys seen t else (k, v) :: dedupKeys (k :: seen) t

/-- `df.loc[:, ~df.columns.duplicated()]` -/
def DF.dropDupCols (df : DF F) : DF F := ⟨dedupKeys [] df.cols, df.nrows⟩

/-- `df[list of names]` as a list of columns; `KeyError` for an unknown name -/
def DF.select (df : DF F) (names : List String) : Py (List (List (Cell F))) :=
  names.mapM fun k => df.col k

/-- keep the rows where the mask is true -/
def DF.filterRows (df : DF F) (mask : List Bool) : DF F :=
  ⟨df.cols.map fun kv => (kv.1, ((mask.zip kv.2).filter (·.1)).map (·.2)), mask.count true⟩

/-- rows of a list of columns, `to_numpy()` -/
def rowsOf (n : Nat) (cols : List (List (Cell F))) : List (List (Cell F)) :=
  (List.range n).map fun i => cols.filterMap (·[i]?)

/-- the float value of a numeric cell (`astype(float)`); strings do not occur in numeric columns -/
def Cell.toNum : Cell F → F
  | .num x => x
  | .int i => Num.ofInt i
  | .str _ => Num.nan

/-- `df[name].values` for a numeric column -/
def DF.numCol (df : DF F) (name : String) : Py (List F) := do
  return (← df.col name).map Cell.toNum

/-- `Series.argmin()`: NaN entries are skipped by giving them the value `+inf`; the position of the
first minimum; `-1` when all entries are NaN; `ValueError` for an empty series. -/
def seriesArgmin (l : List F) : Py Int := do
  let i ← Np.argmin (l.map fun a => if Num.isNaN a then Num.pinf else a)
  return if l.all Num.isNaN then -1 else (i : Int)

/-- `df.iloc[i]`: negative positions count from the end; `IndexError` out of range.  The row is a
dict from column name to value. -/
def DF.iloc (df : DF F) (i : Int) : Py (Dict String (Cell F)) :=
  let j := if i < 0 then i + df.nrows else i
  if 0 ≤ j ∧ j < df.nrows then
    .ok (df.cols.filterMap fun kv => (kv.2[j.toNat]?).map fun c => (kv.1, c))
  else .error .indexError

/-- `df.insert(0, name, values)`: `ValueError` if the name exists or the length differs.  A frame
without rows first gets the rows of the values, filled with NaN (`_ensure_valid_index`). -/
def DF.insertFront (df : DF F) (name : String) (values : List (Cell F)) : Py (DF F) :=
  if (Dict.keys df.cols).contains name then .error .valueError
  else if values.length = df.nrows then .ok ⟨(name, values) :: df.cols, df.nrows⟩
  else if df.nrows = 0 then
    .ok ⟨(name, values) :: df.cols.map fun kv => (kv.1, List.replicate values.length (.num Num.nan)),
         values.length⟩
  else .error .valueError

end GChop.Pd
