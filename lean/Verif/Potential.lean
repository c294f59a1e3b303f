import Verif.Data

/-!
# Model of `galaxychop/utils/_potential.py` and `galaxychop/utils/fortran/potential.f95`

`F` are the float64 numbers of the galaxy, `S` the float32 numbers both backends compute with.
-/

namespace GChop
open Pd

/-- What the computation takes from its surroundings. -/
structure PotEnv (F S : Type) where
  /-- `np.asarray(x, dtype=np.float32)` -/
  down : F → S
  /-- float32 to float64 -/
  up : S → F
  /-- the gravitational constant, _potential.py:41 -/
  G : S
  /-- the compiled extension could be imported, _potential.py:24-27 -/
  fortranBuilt : Bool
  /-- what the uninitialised output buffer of `np.divide(..., where=...)` holds,
  _potential.py:101 -/
  junk : Nat → Nat → S

section backend
variable {S : Type} [Num S]

/-- `dist` of the fortran loop, potential.f95:46-51.  The compiler may fuse the squares of the
differences with the additions, so their sum is `Num.dot`; `soft2` comes from memory. -/
def fortranDist (x y z : List S) (soft2 : S) (i j : Nat) : S :=
  let at' (l : List S) (k : Nat) : S := l.getD k Num.nan
  let dx := at' x i -. at' x j
  let dy := at' y i -. at' y j
  let dz := at' z i -. at' z j
  Num.sqrt (Num.dot [(dx, dx), (dy, dy), (dz, dz)] +. soft2)

/-- the inner loop of iteration `i`, potential.f95:43-55: the value of `pe(i)` before step `j` -/
def fortranInner (x y z m : List S) (soft2 : S) (i : Nat) : Nat → S
  | 0 => Num.ofRat 0
  | j + 1 =>
    let pe := fortranInner x y z m soft2 i j
    if i ≠ j then pe +. (m.getD j Num.nan /. fortranDist x y z soft2 i j) else pe

/-- the subroutine `fortran_potential` run by one thread, potential.f95:16-59 -/
def fortranPe (x y z m : List S) (soft : S) : List S :=
  let soft2 := Num.sq soft
  (List.range x.length).map fun i => fortranInner x y z m soft2 i x.length

/-- `fortran_potential`, _potential.py:49-70 -/
def fortranPotential (built : Bool) (G : S) (x y z m : List S) (soft : S) : Py (List S) :=
  if built then .ok ((fortranPe x y z m soft).map (· *. G))
  else .error .attributeError

/-- `dist[i, j]` of the numpy backend after `fill_diagonal`, _potential.py:91-98 -/
def numpyDist (x y z : List S) (soft : S) (i j : Nat) : S :=
  let at' (l : List S) (k : Nat) : S := l.getD k Num.nan
  if i = j then Num.ofRat 0
  else Num.sqrt (((Num.sq (at' x j -. at' x i) +. Num.sq (at' y j -. at' y i))
    +. Num.sq (at' z j -. at' z i)) +. Num.sq soft)

/-- `numpy_potential`, _potential.py:73-103; where the filter is false `np.divide` leaves its
freshly allocated output as it is. -/
def numpyPotential (junk : Nat → Nat → S) (G : S) (x y z m : List S) (soft : S) : List S :=
  let n := x.length
  (List.range n).map fun i =>
    Num.sum ((List.range n).map fun j =>
      let d := numpyDist x y z soft i j
      if !(d ==. Num.ofRat 0) then m.getD j Num.nan /. d else junk i j) *. G

end backend

variable {F S : Type} [Num F] [Num S]

/-- `Series.max()`: NaN are skipped; NaN if nothing is left. -/
def Pd.seriesMax (l : List F) : F :=
  match l.filter (fun a => !Num.isNaN a) with
  | [] => Num.nan
  | a :: l => l.foldl (fun a b => if a <. b then b else a) a

/-- `POTENTIAL_BACKENDS[backend]` and its call, _potential.py:110-113, 138, 156 -/
def runBackend (env : PotEnv F S) (backend : String) (x y z m : List S) (soft : S) :
    Py (List S) :=
  if backend == "fortran" then fortranPotential env.fortranBuilt env.G x y z m soft
  else if backend == "numpy" then .ok (numpyPotential env.junk env.G x y z m soft)
  else .error .keyError

/-- `potential(galaxy, backend)`, _potential.py:117-177.  The dictionary lookup of line 138 is done
at the call of line 156; nothing in between can raise.  An empty galaxy gives empty arrays (that
f2py accepts arrays of length zero is not checked here). -/
def potential (env : PotEnv F S) (g : Galaxy F) (backend : String) : Py (Galaxy F) := do
  if g.hasPotential then .error .valueError
  else
    let df ← g.toDataframe none none
    let x ← df.numCol "x"
    let y ← df.numCol "y"
    let z ← df.numCol "z"
    let m ← df.numCol "m"
    let softening := Pd.seriesMax (← df.numCol "softening")
    let pot ← runBackend env backend (x.map env.down) (y.map env.down) (z.map env.down)
      (m.map env.down) (env.down softening)
    let numS := g.stars.m.length
    let num := g.stars.m.length + g.darkMatter.m.length
    let fin (l : List S) : KVal F := .arr (l.map fun p => env.up (Num.neg p))
    mkgalaxyKw (Dict.update (galaxyAsKwargs g) [
      ("potential_s", fin (pot.take numS)),
      ("potential_dm", fin ((pot.drop numS).take (num - numS))),
      ("potential_g", fin (pot.drop num))])

/-! ## The OpenMP loop, potential.f95:37-58

`pe` is shared; the loop variables `i`, `j` and the variable `dist` are private to a thread.  Any
idle thread may take any iteration that was not handed out yet (a superset of `SCHEDULE(DYNAMIC)`),
and the steps of different threads interleave arbitrarily.  `pe(i) = pe(i) + m(j) / dist` is two
steps, a load and a store. -/

section omp
variable {S : Type} [Num S]

/-- where a thread is inside the body of iteration `i` -/
inductive OmpPc (S : Type) where
  /-- before `pe(i) = 0.` -/
  | start
  /-- at the head of the `do j` loop -/
  | head
  /-- `dist` is computed -/
  | haveDist (dist : S)
  /-- `pe(i)` is loaded -/
  | loaded (dist reg : S)

/-- the private state of a thread -/
inductive OmpThread (S : Type) where
  | idle
  | run (i j : Nat) (pc : OmpPc S)

/-- the machine: shared memory, iterations not yet handed out, threads -/
structure OmpState (S : Type) where
  pe : Nat → S
  todo : Nat → Bool
  thr : Nat → OmpThread S

/-- update a function at one point -/
def upd {α : Type} (f : Nat → α) (i : Nat) (a : α) : Nat → α := fun k => if k = i then a else f k

/-- one step of one thread -/
inductive OmpStep (x y z m : List S) (soft2 : S) (n : Nat) (nthreads : Nat) :
    OmpState S → OmpState S → Prop where
  /-- an idle thread takes an iteration -/
  | take (s : OmpState S) (t i : Nat) : t < nthreads → s.thr t = .idle → i < n →
      s.todo i = true →
      OmpStep x y z m soft2 n nthreads s
        { s with todo := upd s.todo i false, thr := upd s.thr t (.run i 0 .start) }
  /-- `pe(i) = 0.` -/
  | init (s : OmpState S) (t i j : Nat) : s.thr t = .run i j .start →
      OmpStep x y z m soft2 n nthreads s
        { s with pe := upd s.pe i (Num.ofRat 0), thr := upd s.thr t (.run i 0 .head) }
  /-- `i == j`: next `j` -/
  | skip (s : OmpState S) (t i j : Nat) : s.thr t = .run i j .head → j < n → i = j →
      OmpStep x y z m soft2 n nthreads s { s with thr := upd s.thr t (.run i (j + 1) .head) }
  /-- compute the private `dist` -/
  | dist (s : OmpState S) (t i j : Nat) : s.thr t = .run i j .head → j < n → i ≠ j →
      OmpStep x y z m soft2 n nthreads s
        { s with thr := upd s.thr t (.run i j (.haveDist (fortranDist x y z soft2 i j))) }
  /-- load `pe(i)` -/
  | load (s : OmpState S) (t i j : Nat) (d : S) : s.thr t = .run i j (.haveDist d) →
      OmpStep x y z m soft2 n nthreads s
        { s with thr := upd s.thr t (.run i j (.loaded d (s.pe i))) }
  /-- store `pe(i)` -/
  | store (s : OmpState S) (t i j : Nat) (d r : S) : s.thr t = .run i j (.loaded d r) →
      OmpStep x y z m soft2 n nthreads s
        { s with pe := upd s.pe i (r +. (m.getD j Num.nan /. d)),
                 thr := upd s.thr t (.run i (j + 1) .head) }
  /-- the inner loop is over -/
  | finish (s : OmpState S) (t i j : Nat) : s.thr t = .run i j .head → ¬ j < n →
      OmpStep x y z m soft2 n nthreads s { s with thr := upd s.thr t .idle }

/-- executions -/
inductive OmpRun (x y z m : List S) (soft2 : S) (n nthreads : Nat) :
    OmpState S → OmpState S → Prop where
  | refl (s : OmpState S) : OmpRun x y z m soft2 n nthreads s s
  | tail {s t u : OmpState S} : OmpRun x y z m soft2 n nthreads s t →
      OmpStep x y z m soft2 n nthreads t u → OmpRun x y z m soft2 n nthreads s u

/-- the start of the parallel region: all iterations to do, all threads idle, `pe` uninitialised -/
def OmpInit (s : OmpState S) : Prop := (∀ i, s.todo i = true) ∧ ∀ t, s.thr t = .idle

/-- the barrier at the end of the region: everything handed out and all threads idle -/
def OmpDone (n : Nat) (s : OmpState S) : Prop :=
  (∀ i, i < n → s.todo i = false) ∧ ∀ t, s.thr t = .idle

end omp

end GChop
