import Verif.Align
import Verif.Center
import Verif.Potential

/-!
# The arrays of a galaxy as shared mutable memory

In `Verif/Data.lean` a particle set holds lists of numbers.  In Python it holds references to arrays,
and numpy arrays can be written to even if the object that holds them is frozen
(`galaxy.stars.x[0] = ...`).  Here a particle set holds addresses, and the functions that make galaxies
run on a memory of arrays.  The libraries are described as follows.

* `uttr.ib(unit=...)` (data.py:101-126) multiplies an array without unit by the unit, and astropy
  copies the array in this multiplication; it keeps a quantity as it is, the same object.
* `attr.asdict(recurse=True)` (data.py:564) returns the stored quantities themselves.
* `to_dataframe` copies: pandas copies the arrays of a dict (data.py:270) and `concat` copies again.  So
  the functions below only read the memory through it.

Simplifications: all quantities have the default units (`Verif/Quantity.lean` has the others); arrays do
not overlap in part; memory is not freed; a write is an assignment to one item.
-/

namespace GChop
open Pd

variable {F : Type} [Num F]

/-- the arrays that exist, by address -/
abbrev Mem (F : Type) := List (List F)

/-- the content of the array at an address -/
def Mem.at (h : Mem F) (a : Nat) : List F := h.getD a []

/-- a computation that may change the memory and may raise -/
def InMem (F α : Type) := Mem F → Py α × Mem F

namespace InMem

variable {α β : Type}

/-- return a value -/
def ret (a : α) : InMem F α := fun h => (.ok a, h)

/-- one computation after another; what the first one did to the memory stays when it raises -/
def andThen (x : InMem F α) (f : α → InMem F β) : InMem F β := fun h =>
  match x h with
  | (.ok a, h) => f a h
  | (.error e, h) => (.error e, h)

instance : Monad (InMem F) where
  pure := ret
  bind := andThen

/-- a computation that only reads the memory -/
def reading (f : Mem F → Py α) : InMem F α := fun h => (f h, h)

/-- raise an exception -/
def raising (e : PyErr) : InMem F α := fun h => (.error e, h)

/-- a new array -/
def alloc (l : List F) : InMem F Nat := fun h => (.ok h.length, h ++ [l])

end InMem

open InMem

/-- `a[i] = v` for the array at address `a` -/
def writeItem (a i : Nat) (v : F) : InMem F Unit := fun h =>
  if i < (h.at a).length then (.ok (), h.set a ((h.at a).set i v)) else (.error .indexError, h)

/-- what can be given for an attribute with a unit: an array without unit that the caller has, a
quantity that the caller has, or an array that was made for this call -/
inductive HGiven (F : Type) where
  | array (a : Nat)
  | quantity (a : Nat)
  | temp (l : List F)

namespace HGiven

/-- the converter of `uttr.ib(unit=...)` -/
def attach : HGiven F → InMem F Nat
  | .array a => do
    let l ← reading fun h => .ok (h.at a)
    alloc l
  | .quantity a => return a
  | .temp l => alloc l

end HGiven

/-- The constructor arguments of a `ParticleSet` other than the type, data.py:101-117. -/
structure HArgs (F : Type) where
  m : HGiven F
  x : HGiven F
  y : HGiven F
  z : HGiven F
  vx : HGiven F
  vy : HGiven F
  vz : HGiven F
  potential : Option (HGiven F)
  softening : F

/-- `ParticleSet`, data.py:59-126, with the addresses of its arrays. -/
structure HSet (F : Type) where
  ptype : PType
  m : Nat
  x : Nat
  y : Nat
  z : Nat
  vx : Nat
  vy : Nat
  vz : Nat
  potential : Option Nat
  softening : F
  hasPotential : Bool
  kineticEnergy : Nat
  totalEnergy : Option Nat
  Jx : Nat
  Jy : Nat
  Jz : Nat

namespace HSet

/-- the particle set as `arr_` shows it, with the content the arrays have now -/
def read (h : Mem F) (p : HSet F) : ParticleSet F where
  ptype := p.ptype
  m := h.at p.m
  x := h.at p.x
  y := h.at p.y
  z := h.at p.z
  vx := h.at p.vx
  vy := h.at p.vy
  vz := h.at p.vz
  potential := p.potential.map h.at
  softening := p.softening
  hasPotential := p.hasPotential
  kineticEnergy := h.at p.kineticEnergy
  totalEnergy := p.totalEnergy.map h.at
  Jx := h.at p.Jx
  Jy := h.at p.Jy
  Jz := h.at p.Jz

/-- an optional argument -/
def attachOpt : Option (HGiven F) → InMem F (Option Nat)
  | none => return none
  | some i => do return some (← i.attach)

/-- an optional new array -/
def allocOpt : Option (List F) → InMem F (Option Nat)
  | none => return none
  | some l => do return some (← alloc l)

/-- `ParticleSet(ptype, ...)`, data.py:101-195: the converters, the defaults (new arrays, to which the
unit is attached) and `__attrs_post_init__`. -/
def new (t : PType) (a : HArgs F) : InMem F (HSet F) := do
  let m ← a.m.attach
  let x ← a.x.attach
  let y ← a.y.attach
  let z ← a.z.attach
  let vx ← a.vx.attach
  let vy ← a.vy.attach
  let vz ← a.vz.attach
  let pot ← attachOpt a.potential
  let arr ← reading fun h => .ok (⟨h.at m, h.at x, h.at y, h.at z, h.at vx, h.at vy, h.at vz,
    pot.map h.at, a.softening⟩ : PArgs F)
  let keVals ← reading fun _ => ParticleSet.kineticDefault arr
  let ke ← alloc keVals
  let teVals ← reading fun h => ParticleSet.totalDefault arr (h.at ke)
  let te ← allocOpt teVals
  let jx ← alloc (← reading fun _ => ParticleSet.crossTerm arr.y arr.vz arr.z arr.vy)
  let jy ← alloc (← reading fun _ => ParticleSet.crossTerm arr.z arr.vx arr.x arr.vz)
  let jz ← alloc (← reading fun _ => ParticleSet.crossTerm arr.x arr.vy arr.y arr.vx)
  if ParticleSet.distinctLengths arr then raising .valueError
  else return {
    ptype := t, m := m, x := x, y := y, z := z, vx := vx, vy := vy, vz := vz,
    potential := pot, softening := a.softening, hasPotential := pot.isSome,
    kineticEnergy := ke, totalEnergy := te, Jx := jx, Jy := jy, Jz := jz }

end HSet

/-- `Galaxy`, data.py:278-305. -/
structure HGalaxy (F : Type) where
  stars : HSet F
  darkMatter : HSet F
  gas : HSet F
  hasPotential : Bool

namespace HGalaxy

/-- the galaxy with the content its arrays have now: all that `to_dataframe` reads -/
def read (h : Mem F) (g : HGalaxy F) : Galaxy F :=
  ⟨g.stars.read h, g.darkMatter.read h, g.gas.read h, g.hasPotential⟩

/-- `Galaxy(stars, dark_matter, gas)`, data.py:301-334. -/
def new (s d g : HSet F) : InMem F (HGalaxy F) :=
  let flags := [s.hasPotential, g.hasPotential, d.hasPotential]
  if flags.contains true && flags.contains false then raising .valueError
  else if s.ptype ≠ .stars then raising .typeError
  else if d.ptype ≠ .darkMatter then raising .typeError
  else if g.ptype ≠ .gas then raising .typeError
  else return ⟨s, d, g, s.hasPotential⟩

end HGalaxy

/-- Values of keyword arguments of `mkgalaxy`. -/
inductive HKw (F : Type) where
  | given (i : HGiven F)
  | none
  | num (x : F)

/-- an optional stored quantity as a keyword value -/
def HKw.ofOption : Option Nat → HKw F
  | some q => .given (.quantity q)
  | Option.none => .none

/-- `_pset_as_kwargs(pset, suffix)`, data.py:556-562: the stored quantities themselves. -/
def hsetAsKwargs (p : HSet F) (suffix : String) : Dict String (HKw F) :=
  [ ("m_" ++ suffix, .given (.quantity p.m)),
    ("x_" ++ suffix, .given (.quantity p.x)),
    ("y_" ++ suffix, .given (.quantity p.y)),
    ("z_" ++ suffix, .given (.quantity p.z)),
    ("vx_" ++ suffix, .given (.quantity p.vx)),
    ("vy_" ++ suffix, .given (.quantity p.vy)),
    ("vz_" ++ suffix, .given (.quantity p.vz)),
    ("potential_" ++ suffix, .ofOption p.potential),
    ("softening_" ++ suffix, .num p.softening) ]

/-- `galaxy_as_kwargs(galaxy)`, data.py:542-570. -/
def hgalaxyAsKwargs (g : HGalaxy F) : Dict String (HKw F) :=
  Dict.update [] (hsetAsKwargs g.stars "s" ++ hsetAsKwargs g.darkMatter "dm" ++
    hsetAsKwargs g.gas "g")

/-- `mkgalaxy` with its parameters grouped by particle type, data.py:645-682. -/
def hmkgalaxy (s d g : HArgs F) : InMem F (HGalaxy F) := do
  let stars ← HSet.new .stars s
  let darkMatter ← HSet.new .darkMatter d
  let gas ← HSet.new .gas g
  HGalaxy.new stars darkMatter gas

/-- an argument with a unit, as `arrArg` -/
def hArg (kw : Dict String (HKw F)) (k : String) : Py (HGiven F) :=
  match Dict.get? kw k with
  | some (.given i) => .ok i
  | _ => .error .typeError

/-- an optional argument with a unit, as `optArrArg` -/
def optHArg (kw : Dict String (HKw F)) (k : String) : Py (Option (HGiven F)) :=
  match Dict.get? kw k with
  | some (.given i) => .ok (some i)
  | some (.num _) => .error .typeError
  | _ => .ok none

/-- a float argument, as `numArg` -/
def hNumArg (kw : Dict String (HKw F)) (k : String) : Py F :=
  match Dict.get? kw k with
  | some (.num x) => .ok x
  | none => .ok (Num.ofRat 0)
  | _ => .error .typeError

/-- the arguments of one particle type, data.py:645-680 -/
def hargsOf (kw : Dict String (HKw F)) (suffix : String) : Py (HArgs F) := do
  let m ← hArg kw ("m_" ++ suffix)
  let x ← hArg kw ("x_" ++ suffix)
  let y ← hArg kw ("y_" ++ suffix)
  let z ← hArg kw ("z_" ++ suffix)
  let vx ← hArg kw ("vx_" ++ suffix)
  let vy ← hArg kw ("vy_" ++ suffix)
  let vz ← hArg kw ("vz_" ++ suffix)
  let potential ← optHArg kw ("potential_" ++ suffix)
  let softening ← hNumArg kw ("softening_" ++ suffix)
  return ⟨m, x, y, z, vx, vy, vz, potential, softening⟩

/-- `mkgalaxy(**kw)`, data.py:573-682. -/
def hmkgalaxyKw (kw : Dict String (HKw F)) : InMem F (HGalaxy F) := do
  if !(Dict.keys kw).all (fun k => (requiredParams ++ optionalParams).contains k) then
    raising .typeError
  else if !requiredParams.all (fun k => (Dict.keys kw).contains k) then
    raising .typeError
  else
    let s ← reading fun _ => hargsOf kw "s"
    let d ← reading fun _ => hargsOf kw "dm"
    let g ← reading fun _ => hargsOf kw "g"
    hmkgalaxy s d g

/-- a new array as a keyword value -/
def HKw.temp (l : List F) : HKw F := .given (.temp l)

/-- `center(galaxy)`, _center.py:26-78. -/
def hcenter (g : HGalaxy F) : InMem F (HGalaxy F) := do
  if !g.hasPotential then raising .valueError
  else
    let df ← reading fun h =>
      (g.read h).toDataframe none (some ["ptypev", "x", "y", "z", "potential"])
    let pot ← reading fun _ => df.numCol "potential"
    let idx ← reading fun _ => seriesArgmin pot
    let row ← reading fun _ => df.iloc idx
    let x ← reading fun _ => subColumn df row "x"
    let y ← reading fun _ => subColumn df row "y"
    let z ← reading fun _ => subColumn df row "z"
    let types ← reading fun _ => df.col "ptypev"
    hmkgalaxyKw (Dict.update (hgalaxyAsKwargs g) [
      ("x_s", .temp (ofType types x .stars)),
      ("y_s", .temp (ofType types y .stars)),
      ("z_s", .temp (ofType types z .stars)),
      ("x_dm", .temp (ofType types x .darkMatter)),
      ("y_dm", .temp (ofType types y .darkMatter)),
      ("z_dm", .temp (ofType types z .darkMatter)),
      ("x_g", .temp (ofType types x .gas)),
      ("y_g", .temp (ofType types y .gas)),
      ("z_g", .temp (ofType types z .gas))])

/-- `star_align(galaxy, r_cut=...)`, _align.py:89-172. -/
def hstarAlign (g : HGalaxy F) (rCut : Option F) : InMem F (HGalaxy F) := do
  if badCut rCut then raising .valueError
  else
    let starsDf ← reading fun h => (g.stars.read h).toDataframe
      (some ["m", "Jx", "Jy", "Jz", "x", "y", "z", "vx", "vy", "vz"])
    let dmDf ← reading fun h =>
      (g.darkMatter.read h).toDataframe (some ["x", "y", "z", "vx", "vy", "vz"])
    let gasDf ← reading fun h =>
      (g.gas.read h).toDataframe (some ["x", "y", "z", "vx", "vy", "vz"])
    let m ← reading fun _ => starsDf.numCol "m"
    let x ← reading fun _ => starsDf.numCol "x"
    let y ← reading fun _ => starsDf.numCol "y"
    let z ← reading fun _ => starsDf.numCol "z"
    let jx ← reading fun _ => starsDf.numCol "Jx"
    let jy ← reading fun _ => starsDf.numCol "Jy"
    let jz ← reading fun _ => starsDf.numCol "Jz"
    let A := getRotMatrix m x y z jx jy jz rCut
    let s ← reading fun _ => rotateFrame A starsDf
    let d ← reading fun _ => rotateFrame A dmDf
    let h ← reading fun _ => rotateFrame A gasDf
    hmkgalaxyKw (Dict.update (hgalaxyAsKwargs g) [
      ("x_s", .temp s.1.1), ("y_s", .temp s.1.2.1), ("z_s", .temp s.1.2.2),
      ("vx_s", .temp s.2.1), ("vy_s", .temp s.2.2.1), ("vz_s", .temp s.2.2.2),
      ("x_dm", .temp d.1.1), ("y_dm", .temp d.1.2.1), ("z_dm", .temp d.1.2.2),
      ("vx_dm", .temp d.2.1), ("vy_dm", .temp d.2.2.1), ("vz_dm", .temp d.2.2.2),
      ("x_g", .temp h.1.1), ("y_g", .temp h.1.2.1), ("z_g", .temp h.1.2.2),
      ("vx_g", .temp h.2.1), ("vy_g", .temp h.2.2.1), ("vz_g", .temp h.2.2.2)])

/-- `potential(galaxy, backend)`, _potential.py:117-177. -/
def hpotential {S : Type} [Num S] (penv : PotEnv F S) (g : HGalaxy F) (backend : String) :
    InMem F (HGalaxy F) := do
  if g.hasPotential then raising .valueError
  else
    let df ← reading fun h => (g.read h).toDataframe none none
    let x ← reading fun _ => df.numCol "x"
    let y ← reading fun _ => df.numCol "y"
    let z ← reading fun _ => df.numCol "z"
    let m ← reading fun _ => df.numCol "m"
    let soft ← reading fun _ => df.numCol "softening"
    let softening := Pd.seriesMax soft
    let pot ← reading fun _ => runBackend penv backend (x.map penv.down) (y.map penv.down)
      (z.map penv.down) (m.map penv.down) (penv.down softening)
    let numS ← reading fun h => .ok (g.stars.read h).len
    let numD ← reading fun h => .ok (g.darkMatter.read h).len
    let num := numS + numD
    let fin (l : List S) : HKw F := .temp (l.map fun p => penv.up (Num.neg p))
    hmkgalaxyKw (Dict.update (hgalaxyAsKwargs g) [
      ("potential_s", fin (pot.take numS)),
      ("potential_dm", fin ((pot.drop numS).take (num - numS))),
      ("potential_g", fin (pot.drop num))])

/-- what a caller does in a session -/
inductive HOp (F : Type) where
  /-- make an array or a quantity -/
  | array (l : List F)
  /-- `mkgalaxy(...)` -/
  | mkgalaxy (s d g : HArgs F)
  /-- `center` of the `k`-th galaxy of the session -/
  | center (k : Nat)
  /-- `star_align` of the `k`-th galaxy -/
  | starAlign (k : Nat) (rCut : Option F)
  /-- `potential` of the `k`-th galaxy -/
  | potential (S : Type) (inst : Num S) (penv : PotEnv F S) (k : Nat) (backend : String)
  /-- `a[i] = v` -/
  | write (a i : Nat) (v : F)

/-- the state of a session: the arrays and the galaxies that were made -/
structure Session (F : Type) where
  mem : Mem F
  galaxies : List (HGalaxy F)

/-- the galaxy that was made, if any, joins the session -/
def Session.join (s : Session F) (r : Py (HGalaxy F) × Mem F) : Session F :=
  match r with
  | (.ok g, h) => ⟨h, s.galaxies ++ [g]⟩
  | (.error _, h) => ⟨h, s.galaxies⟩

/-- one step; a galaxy that does not exist cannot be named -/
def Session.step (s : Session F) : HOp F → Session F
  | .array l => ⟨s.mem ++ [l], s.galaxies⟩
  | .mkgalaxy a d g => s.join (hmkgalaxy a d g s.mem)
  | .center k => match s.galaxies[k]? with
    | some g => s.join (hcenter g s.mem)
    | none => s
  | .starAlign k c => match s.galaxies[k]? with
    | some g => s.join (hstarAlign g c s.mem)
    | none => s
  | .potential _ _ penv k b => match s.galaxies[k]? with
    | some g => s.join (hpotential penv g b s.mem)
    | none => s
  | .write a i v => ⟨(writeItem a i v s.mem).2, s.galaxies⟩

/-- a whole session -/
def Session.run (s : Session F) (ops : List (HOp F)) : Session F := ops.foldl Session.step s

end GChop
