import Verif.Center

/-!
# Model of `galaxychop/utils/_circ.py`

The warnings (lines 294-295) are modelled in Verif/CircWarn.lean: the filter changes what is printed,
not the result, unless the caller asks for `"error"`.
-/

namespace GChop
open Pd

variable {F : Type} [Num F]

/-- `DEFAULT_CBIN`, _circ.py:33 -/
def defaultCbin : F × F := (Num.ofRat (1/20), Num.ofRat (1/200))

/-- What the computation takes from numpy without a fixed answer: the unstable sort of line 141 and
the interval search of line 198. -/
structure CircEnv (F : Type) where
  argsort : List F → List Nat
  locate : List F → F → Nat

/-- the assumptions on `CircEnv` -/
structure CircEnv.OK (env : CircEnv F) : Prop where
  argsort : Np.ArgsortOK env.argsort
  locate : Np.LocateOK env.locate

/-- `JCirc`, _circ.py:44-73 -/
structure JCirc (F : Type) where
  normalizedStarEnergy : List F
  normalizedStarJz : List F
  eps : List F
  epsR : List F
  x : List F
  y : List F
  deriving DecidableEq

/-- the `asdict` fields in the order of the class, _circ.py:67-73 -/
def JCirc.asDict (j : JCirc F) : Dict String (List F) :=
  [("normalized_star_energy", j.normalizedStarEnergy), ("normalized_star_Jz", j.normalizedStarJz),
   ("eps", j.eps), ("eps_r", j.epsR)]

/-- `JCirc.circularity_attributes()`: the same names sorted, _circ.py:75-87 -/
def circularityAttributes : List String :=
  ["eps", "eps_r", "normalized_star_Jz", "normalized_star_energy"]

/-- `JCirc.isfinite()`, _circ.py:99-106; `ValueError` if the arrays have different lengths (the
list of arrays is then not a matrix). -/
def JCirc.isfinite (j : JCirc F) : Py (List Bool) :=
  let ls := j.asDict.map (·.2)
  if ls.all (fun l => l.length == j.normalizedStarEnergy.length) then
    .ok ((List.range j.normalizedStarEnergy.length).map fun i =>
      ls.all fun l => Num.isFinite (l.getD i Num.nan))
  else .error .valueError

/-- `(E_tot <= 0.0) & (E_tot != -np.inf)`, _circ.py:121 and 188 -/
def isBound (e : F) : Bool := (e <=. Num.ofRat 0) && !(e ==. Num.ninf)

/-- `np.concatenate([arange(-1.0, -0.1, bin0), arange(-0.1, 0.0, bin1)])`, _circ.py:129-131 -/
def energyBins (bin0 bin1 : F) : Py (List F) := do
  let aux0 ← Np.arange (Num.ofRat (-1)) (Num.ofRat (-1/10)) bin0
  let aux1 ← Np.arange (Num.ofRat (-1/10)) (Num.ofRat 0) bin1
  return aux0 ++ aux1

/-- the point of the energy bin `(lo, hi]`, `(0, 0)` if it is empty, _circ.py:140-157 -/
def binPoint (env : CircEnv F) (E Jz : List F) (lo hi : F) : F × F :=
  let mask := Np.whereIdx (E.map fun e => (e <=. hi) && (lo <. e))
  let s := env.argsort ((Np.take Jz mask).map Num.abs)
  let Es := Np.take (Np.take E mask) s
  let Js := (Np.take (Np.take Jz mask) s).map Num.abs
  if s.length = 0 then (Num.ofRat 0, Num.ofRat 0)
  else if s.length = 1 then (Np.fromEnd Es 1, Np.fromEnd Js 1)
  else if Num.ofRat (1/100) <=. (Num.ofRat 1 -. (Np.fromEnd Js 2 /. Np.fromEnd Js 1)) then
    (Np.fromEnd Es 2, Np.fromEnd Js 2)
  else (Np.fromEnd Es 1, Np.fromEnd Js 1)

/-- slots `1 .. len(aux) - 1` of `x` and `y`, _circ.py:139-157 -/
def innerPoints (env : CircEnv F) (E Jz : List F) : List F → List (F × F)
  | lo :: hi :: aux => binPoint env E Jz lo hi :: innerPoints env E Jz (hi :: aux)
  | _ => []

/-- `a[:-i]`, which is empty for `i = 0` -/
def dropTail {α : Type} (l : List α) (i : Nat) : List α := if i = 0 then [] else l.take (l.length - i)

/-- The profile `(x, y)` as a list of points, _circ.py:133-179.  The two arrays are always written
at the same place, so they are kept as one list of pairs. -/
def profile (env : CircEnv F) (aux E Jz : List F) : Py (List (F × F)) := do
  let i0 ← Np.argmin E
  let first := (Num.ofRat (-1), Num.abs (Jz.getD i0 Num.nan))
  match aux.getLast? with
  | none => .error .indexError
  | some top =>
    let inner := innerPoints env E Jz aux
    let mask := Np.whereIdx (E.map fun e => top <. e)
    let Em := Np.take E mask
    let Jm := (Np.take Jz mask).map Num.abs
    let pts ←
      if mask.length ≠ 0 then do
        let k ← Np.argmax Jm
        .ok (first :: inner ++ [(Em.getD k Num.nan, Jm.getD k Num.nan)])
      else
        let pts := first :: inner ++ [(Num.ofRat 0, Num.ofRat 0)]
        let i := (pts.filter fun p => p.2 ==. Num.ofRat 0).length - 1
        .ok (if i = 0 then dropTail pts 1 else dropTail pts i)
    return pts.filter fun p => !(p.1 ==. Num.ofRat 0)

/-- `np.sqrt(df.Jx.values ** 2 + df.Jy.values ** 2)`, _circ.py:117 and 183 -/
def inPlane (jx jy : List F) : List F :=
  List.zipWith (fun a b => Num.sqrt (Num.sq a +. Num.sq b)) jx jy

/-- the end of `_jcirc`, _circ.py:202-232 -/
def finishCirc (nStars : Nat) (boundStar : List Nat) (eStar jzStar eps epsR x y : List F) :
    Py (JCirc F) := do
  let nan (n : Nat) : List F := List.replicate n Num.nan
  -- 202-210
  let e1 ← Np.scatter (nan nStars) boundStar eStar
  let z1 ← Np.scatter (nan jzStar.length) boundStar jzStar
  let c1 ← Np.scatter (nan nStars) boundStar eps
  let r1 ← Np.scatter (nan nStars) boundStar epsR
  -- 213-217
  let mask := Np.whereIdx (c1.map fun e => Num.ofRat 1 <. e)
  let e2 ← Np.fillAt e1 mask Num.nan
  let z2 ← Np.fillAt z1 mask Num.nan
  let c2 ← Np.fillAt c1 mask Num.nan
  let r2 ← Np.fillAt r1 mask Num.nan
  -- 219-223
  let mask := Np.whereIdx (c2.map fun e => e <. Num.ofRat (-1))
  let e3 ← Np.fillAt e2 mask Num.nan
  let z3 ← Np.fillAt z2 mask Num.nan
  let c3 ← Np.fillAt c2 mask Num.nan
  let r3 ← Np.fillAt r2 mask Num.nan
  return { normalizedStarEnergy := e3, normalizedStarJz := z3, eps := c3, epsR := r3, x, y }

/-- `_jcirc(galaxy, bin0, bin1)`, _circ.py:109-200 and `finishCirc` -/
def jcirc (env : CircEnv F) (g : Galaxy F) (bin0 bin1 : F) : Py (JCirc F) := do
  let df ← g.toDataframe none (some ["ptypev", "total_energy", "Jx", "Jy", "Jz"])
  let jxAll ← df.numCol "Jx"
  let jyAll ← df.numCol "Jy"
  let jzAll ← df.numCol "Jz"
  let jrPart := inPlane jxAll jyAll
  let eTot ← df.numCol "total_energy"
  let bound := Np.whereIdx (eTot.map isBound)
  -- 124-125
  let eMin ← Np.amin (Np.take eTot bound)
  let E := (Np.take eTot bound).map (· /. Num.abs eMin)
  let jzMax ← Np.amax ((Np.take jzAll bound).map Num.abs)
  let Jz := (Np.take jzAll bound).map (· /. jzMax)
  -- 129-179
  let aux ← energyBins bin0 bin1
  let pts ← profile env aux E Jz
  let x := pts.map (·.1)
  let y := pts.map (·.2)
  -- 182-188
  let types ← df.col "ptypev"
  let jrStar := inPlane (ofType types jxAll .stars) (ofType types jyAll .stars)
  let eTotS := ofType types eTot .stars
  let boundStar := Np.whereIdx (eTotS.map isBound)
  -- 191-200
  let eStar := (Np.take eTotS boundStar).map (· /. Num.abs eMin)
  let jzStar := (Np.take (ofType types jzAll .stars) boundStar).map (· /. jzMax)
  let jrMax ← Np.amax ((Np.take jrPart bound).map Num.abs)
  let jrStarN := (Np.take jrStar boundStar).map (· /. jrMax)
  let jCirc ← Np.interp env.locate eStar x y
  let eps := List.zipWith Num.div jzStar jCirc
  let epsR := List.zipWith Num.div jrStarN jCirc
  finishCirc eTotS.length boundStar eStar jzStar eps epsR x y

end GChop
