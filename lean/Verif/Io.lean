import Verif.Data

/-!
# Model of `galaxychop/io.py`

An HDF5 file is a dictionary of root objects and a dictionary of root attributes; `np.load` has
already been called (the readers receive arrays).

From astropy and h5py the following is modelled.
* `Table.from_pandas` masks the NaN entries of a column, and `write_table_hdf5` stores a column with
  masked entries as two columns, `name` and `name.mask` (`serialize_method["hdf5"]` is `data_mask`);
  `serialize_meta` is off, so a reader cannot put them together again.  Masks are stored as 0/1.
* `write_table_hdf5` on an open file: if the name exists, delete it when `append and overwrite`, else
  raise `OSError`; then `create_dataset`, which links a zero-filled dataset and then writes the data.
* `attrs.update` writes one attribute after another; a value h5py cannot store raises `TypeError`.

Not modelled: compression and the other keyword arguments of `write_table_hdf5`; data types and units
of columns (all floats are 64 bit); missing files; the buffering of writes between h5py and the disk.
-/

namespace GChop
open Pd

variable {F : Type} [Num F]

/-! ## Helpers shared by the readers -/

/-- `_table_to_dict(table, key_suffix)`, io.py:54-57 -/
def tableToDict (t : DF F) (suffix : String) : Dict String (KVal F) :=
  let kws : Dict String (KVal F) := (t.cols.filter fun kv => kv.1 != "id").map
    fun kv => (kv.1 ++ "_" ++ suffix, .arr (kv.2.map Cell.toNum))
  let key := "potential_" ++ suffix
  Dict.set (Dict.erase kws key) key ((Dict.get? kws key).getD .none)

/-- the keyword arguments collected from three tables and the call of `mkgalaxy`, io.py:104-121 and
252-269 -/
def galaxyOfTables (s d g : DF F) (softS softDm softG : F) : Py (Galaxy F) :=
  let kws : Dict String (KVal F) :=
    [("softening_s", .num softS), ("softening_dm", .num softDm), ("softening_g", .num softG)]
  let kws := Dict.update kws (tableToDict s "s")
  let kws := Dict.update kws (tableToDict d "dm")
  let kws := Dict.update kws (tableToDict g "g")
  mkgalaxyKw kws

/-! ## HDF5 -/

/-- A root object of a file: a dataset holding a table, or something else. -/
inductive H5Obj (F O : Type) where
  | table (t : DF F)
  | other (o : O)
  deriving DecidableEq

/-- An HDF5 file. -/
structure H5 (F V O : Type) where
  objs : Dict String (H5Obj F O)
  attrs : Dict String V
  deriving DecidableEq

variable {V O : Type}

/-- `Table.read(f[name])`, io.py:100-102.  `readOther` is what astropy does with an object that is not
a table. -/
def readTable (readOther : O → Py (DF F)) (h : H5 F V O) (name : String) : Py (DF F) := do
  match ← Dict.getItem h.objs name with
  | .table t => return t
  | .other o => readOther o

/-- `read_hdf5`, io.py:71-121 -/
def readHdf5 (readOther : O → Py (DF F)) (h : H5 F V O) (softS softDm softG : F) :
    Py (Galaxy F) := do
  let s ← readTable readOther h "stars"
  let d ← readTable readOther h "dark_matter"
  let g ← readTable readOther h "gas"
  galaxyOfTables s d g softS softDm softG

/-- the primitive changes of a file -/
inductive H5Op (F V : Type) where
  /-- `del h5[name]` -/
  | delete (name : String)
  /-- link a zero-filled dataset of the shape of `t` -/
  | create (name : String) (t : DF F)
  /-- write the data of the dataset -/
  | write (name : String) (t : DF F)
  /-- `h5.attrs[k] = v` -/
  | attr (k : String) (v : V)

/-- the fill value of the type of a cell -/
def zeroCell : Cell F → Cell F
  | .num _ => .num Num.zero
  | .int _ => .int 0
  | .str _ => .str ""

/-- a table of the same shape and types, filled with zeros -/
def zeroTable (t : DF F) : DF F := ⟨t.cols.map fun kv => (kv.1, kv.2.map zeroCell), t.nrows⟩

/-- the effect of a primitive change -/
def H5Op.apply (h : H5 F V O) : H5Op F V → H5 F V O
  | .delete name => { h with objs := Dict.erase h.objs name }
  | .create name t => { h with objs := Dict.set h.objs name (.table (zeroTable t)) }
  | .write name t => { h with objs := Dict.set h.objs name (.table t) }
  | .attr k v => { h with attrs := Dict.set h.attrs k v }

/-- a sequence of changes -/
def runOps (ops : List (H5Op F V)) (h : H5 F V O) : H5 F V O := ops.foldl H5Op.apply h

/-- A procedure on a file: the changes it makes, and whether it raises. -/
abbrev H5Proc (F V O : Type) := H5 F V O → List (H5Op F V) × Py Unit

/-- one procedure after the other; an exception ends the sequence -/
def H5Proc.andThen (p r : H5Proc F V O) : H5Proc F V O := fun h =>
  match p h with
  | (ops, .ok _) => (ops ++ (r (runOps ops h)).1, (r (runOps ops h)).2)
  | (ops, .error e) => (ops, .error e)

/-- the keyword arguments `append` and `overwrite` of the caller, if given -/
structure WriteOpts where
  append : Option Bool := none
  overwrite : Option Bool := none

/-- `write_table_hdf5(table, h5, path=name, **kwargs)` after `setdefault`, io.py:164-173 -/
def writeTable (o : WriteOpts) (name : String) (t : DF F) : H5Proc F V O := fun h =>
  if (Dict.get? h.objs name).isSome then
    if o.append.getD true && o.overwrite.getD true then
      ([.delete name, .create name t, .write name t], .ok ())
    else ([], .error .osError)
  else ([.create name t, .write name t], .ok ())

/-- `h5.attrs.update(d)`, io.py:175 -/
def writeAttrs (storable : V → Bool) : Dict String V → H5Proc F V O
  | [], _ => ([], .ok ())
  | (k, v) :: d, h =>
    if storable v then
      let r := writeAttrs storable d h
      (.attr k v :: r.1, r.2)
    else ([], .error .typeError)

/-- `isnull` of one cell -/
def isNull : Cell F → Bool
  | .num x => Num.isNaN x
  | _ => false

/-- one column as `write_table_hdf5` stores it -/
def storedColumn (kv : String × List (Cell F)) : List (String × List (Cell F)) :=
  if kv.2.any isNull then
    [kv, (kv.1 ++ ".mask", kv.2.map fun c => .int (if isNull c then 1 else 0))]
  else [kv]

/-- the dataset that `write_table_hdf5(Table.from_pandas(df), ...)` creates -/
def storedTable (df : DF F) : DF F := ⟨df.cols.flatMap storedColumn, df.nrows⟩

/-- `_df_to_table(df, ptype)`, io.py:60-63, up to the conversion of `storedTable` -/
def dfToTable (df : DF F) (t : PType) : Py (DF F) := do
  let pt ← df.col "ptype"
  let df := df.filterRows (pt.map fun c => isStr t.humanize c)
  return ⟨Dict.erase df.cols "ptype", df.nrows⟩
where
  /-- `cell == s` -/
  isStr (s : String) : Cell F → Bool
    | .str s' => s' == s
    | _ => false

/-- the attributes stored, io.py:147-149 -/
def h5Attributes (hasPot : Bool) : List String :=
  ["ptype", "m", "x", "y", "z", "vx", "vy", "vz"] ++ if hasPot then ["potential"] else []

/-- the three tables of a galaxy, io.py:147-158 -/
def h5Tables (g : Galaxy F) : Py (DF F × DF F × DF F) := do
  let df ← g.toDataframe none (some (h5Attributes g.hasPotential))
  let df ← df.insertFront "id" ((List.range df.nrows).map fun i : Nat => .int i)
  let s ← dfToTable df .stars
  let d ← dfToTable df .darkMatter
  let g ← dfToTable df .gas
  return (storedTable s, storedTable d, storedTable g)

/-- `_DEFAULT_METADATA`, io.py:38-46: the keys; the values are those of the running system -/
def defaultMetaKeys : List String :=
  ["GalaxyChop", "author_email", "affiliation", "url", "platform", "system_encoding", "Python"]

/-- the metadata, io.py:161-163 -/
def h5Metadata (defaults : String → V) (now : V) (metadata : Option (Dict String V)) :
    Dict String V :=
  let d := defaultMetaKeys.map fun k => (k, defaults k)
  let d := Dict.set d "utc_timestamp" now
  Dict.update d (metadata.getD [])

/-- the part of `to_hdf5` inside the `with` block, io.py:170-175 -/
def writeGalaxy (o : WriteOpts) (storable : V → Bool) (s d g : DF F) (md : Dict String V) :
    H5Proc F V O :=
  H5Proc.andThen (writeTable o "stars" s) <|
  H5Proc.andThen (writeTable o "dark_matter" d) <|
  H5Proc.andThen (writeTable o "gas" g) <|
  writeAttrs storable md

/-- what `to_hdf5` needs from its surroundings: the default metadata, the clock and which values h5py
can store -/
structure H5Env (V : Type) where
  defaults : String → V
  now : V
  storable : V → Bool

/-- `to_hdf5(file, galaxy, metadata, **kwargs)`, io.py:124-175 -/
def toHdf5 (env : H5Env V) (o : WriteOpts) (metadata : Option (Dict String V)) (g : Galaxy F) :
    H5Proc F V O := fun h =>
  match h5Tables g with
  | .error e => ([], .error e)
  | .ok (s, d, g) => writeGalaxy o env.storable s d g (h5Metadata env.defaults env.now metadata) h

/-- the file after the call -/
def afterHdf5 (env : H5Env V) (o : WriteOpts) (metadata : Option (Dict String V)) (g : Galaxy F)
    (h : H5 F V O) : H5 F V O := runOps (toHdf5 env o metadata g h).1 h

/-! ## npy -/

/-- A two-dimensional array as `np.load` returns it. -/
structure Arr2 (F : Type) where
  rows : List (List F)
  width : Nat

/-- every row has the width of the shape -/
def Arr2.WF (a : Arr2 F) : Prop := ∀ r ∈ a.rows, r.length = a.width

/-- the cells of column `i` -/
def Arr2.column (a : Arr2 F) (i : Nat) : List (Cell F) := a.rows.map fun r => .num (r.getD i Num.nan)

/-- `Table(array, names=columns)`, io.py:236-238: `ValueError` for a wrong number of names or a
repeated one -/
def tableOfArray (a : Arr2 F) (names : List String) : Py (DF F) :=
  if names.length ≠ a.width then .error .valueError
  else if ¬ names.Nodup then .error .valueError
  else .ok ⟨names.zipIdx.map fun ki => (ki.1, a.column ki.2), a.rows.length⟩

/-- `table.add_column(pot, name="potential")`, io.py:240-250: an array of length one is repeated if
the table has rows; `ValueError` for another length or if the column exists -/
def addPotential (t : DF F) : Option (List F) → Py (DF F)
  | none => .ok t
  | some pot =>
    let pot := if pot.length = 1 ∧ 0 < t.nrows then List.replicate t.nrows (pot.getD 0 Num.nan) else pot
    if ¬ t.cols.isEmpty ∧ pot.length ≠ t.nrows then .error .valueError
    else if (Dict.keys t.cols).contains "potential" then .error .valueError
    else .ok ⟨t.cols ++ [("potential", pot.map .num)], pot.length⟩

/-- `read_npy`, io.py:183-269 -/
def readNpy (star dark gas : Arr2 F) (columns : List String) (potS potDm potG : Option (List F))
    (softS softDm softG : F) : Py (Galaxy F) := do
  let s ← tableOfArray star columns
  let d ← tableOfArray dark columns
  let g ← tableOfArray gas columns
  let s ← addPotential s potS
  let d ← addPotential d potDm
  let g ← addPotential g potG
  galaxyOfTables s d g softS softDm softG

end GChop
