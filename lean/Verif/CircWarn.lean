import Verif.Circ

/-!
# Model of the `runtime_warnings` argument of `jcirc`, `galaxychop/utils/_circ.py:235-296`

`jcirc` runs `_jcirc` under `warnings.simplefilter(runtime_warnings, category=RuntimeWarning)`.  With
the action `"error"` the first `RuntimeWarning` is raised as an exception; the other actions only
decide what is printed.

numpy warns after an element-wise operation if the floating-point flags `invalid`, `divide by zero` or
`overflow` are set.  These flags are set exactly when a result is NaN and no operand is, or when a
result is infinite and all operands are finite.  `np.abs`, `np.min`, `np.max`, `np.argmin`,
`np.argsort`, `np.arange`, `np.interp`, indexing and comparisons do not warn.
-/

namespace GChop
open Pd

/-- What can leave `jcirc`: an exception of `_jcirc`, a `RuntimeWarning` raised as an exception, or the
`AssertionError` of `warnings.simplefilter` for an unknown action. -/
inductive WErr where
  | raised (e : PyErr)
  | runtimeWarning
  | assertionError
  deriving DecidableEq, Repr

/-- a computation under the action `"error"` -/
abbrev PyW (α : Type) := Except WErr α

instance {α : Type} [DecidableEq α] : DecidableEq (PyW α)
  | .ok a, .ok b => if h : a = b then isTrue (by rw [h]) else isFalse (by simp [h])
  | .error a, .error b => if h : a = b then isTrue (by rw [h]) else isFalse (by simp [h])
  | .ok _, .error _ => isFalse (by simp)
  | .error _, .ok _ => isFalse (by simp)

/-- a step that does not warn -/
def noWarn {α : Type} : Py α → PyW α
  | .ok a => .ok a
  | .error e => .error (.raised e)

/-- a step that warns if `w` -/
def warnIf (w : Bool) : PyW Unit := if w then .error .runtimeWarning else .ok ()

variable {F : Type} [Num F]

/-- an operation with these operands and this result sets `invalid`, `divide by zero` or `overflow` -/
def opWarns (args : List F) (r : F) : Bool :=
  (args.all (fun a => !Num.isNaN a) && Num.isNaN r) || (args.all Num.isFinite && !Num.isFinite r)

/-- `a / b` warns -/
def divWarns (a b : F) : Bool := opWarns [a, b] (a /. b)

/-- `a / c` for an array and a number -/
def divStrict (l : List F) (c : F) : PyW (List F) := do
  warnIf (l.any fun a => divWarns a c)
  return l.map (· /. c)

/-- `a / b` for two arrays -/
def divEachStrict (l m : List F) : PyW (List F) := do
  warnIf ((List.zipWith divWarns l m).any id)
  return List.zipWith Num.div l m

/-- `np.sqrt(Jx ** 2 + Jy ** 2)`, _circ.py:117 and 183 -/
def inPlaneStrict (jx jy : List F) : PyW (List F) := do
  warnIf (jx.any fun a => opWarns [a] (Num.sq a))
  warnIf (jy.any fun a => opWarns [a] (Num.sq a))
  warnIf ((List.zipWith (fun a b => opWarns [Num.sq a, Num.sq b] (Num.sq a +. Num.sq b)) jx jy).any id)
  warnIf ((List.zipWith (fun a b => opWarns [Num.sq a +. Num.sq b]
    (Num.sqrt (Num.sq a +. Num.sq b))) jx jy).any id)
  return inPlane jx jy

/-- `binPoint` with the warnings of _circ.py:149-151 -/
def binPointStrict (env : CircEnv F) (E Jz : List F) (lo hi : F) : PyW (F × F) :=
  let mask := Np.whereIdx (E.map fun e => (e <=. hi) && (lo <. e))
  let s := env.argsort ((Np.take Jz mask).map Num.abs)
  let Es := Np.take (Np.take E mask) s
  let Js := (Np.take (Np.take Jz mask) s).map Num.abs
  if s.length = 0 then .ok (Num.ofRat 0, Num.ofRat 0)
  else if s.length = 1 then .ok (Np.fromEnd Es 1, Np.fromEnd Js 1)
  else do
    let q := Np.fromEnd Js 2 /. Np.fromEnd Js 1
    warnIf (divWarns (Np.fromEnd Js 2) (Np.fromEnd Js 1))
    warnIf (opWarns [Num.ofRat 1, q] (Num.ofRat 1 -. q))
    if Num.ofRat (1/100) <=. (Num.ofRat 1 -. q) then
      return (Np.fromEnd Es 2, Np.fromEnd Js 2)
    else return (Np.fromEnd Es 1, Np.fromEnd Js 1)

/-- `innerPoints` with warnings, _circ.py:139-157 -/
def innerPointsStrict (env : CircEnv F) (E Jz : List F) : List F → PyW (List (F × F))
  | lo :: hi :: aux => do
    let p ← binPointStrict env E Jz lo hi
    let r ← innerPointsStrict env E Jz (hi :: aux)
    return p :: r
  | _ => return []

/-- `profile` with warnings, _circ.py:133-179 -/
def profileStrict (env : CircEnv F) (aux E Jz : List F) : PyW (List (F × F)) := do
  let i0 ← noWarn (Np.argmin E)
  let first := (Num.ofRat (-1), Num.abs (Jz.getD i0 Num.nan))
  match aux.getLast? with
  | none => .error (.raised .indexError)
  | some top =>
    let inner ← innerPointsStrict env E Jz aux
    let mask := Np.whereIdx (E.map fun e => top <. e)
    let Em := Np.take E mask
    let Jm := (Np.take Jz mask).map Num.abs
    let pts ←
      if mask.length ≠ 0 then do
        let k ← noWarn (Np.argmax Jm)
        .ok (first :: inner ++ [(Em.getD k Num.nan, Jm.getD k Num.nan)])
      else
        let pts := first :: inner ++ [(Num.ofRat 0, Num.ofRat 0)]
        let i := (pts.filter fun p => p.2 ==. Num.ofRat 0).length - 1
        .ok (if i = 0 then dropTail pts 1 else dropTail pts i)
    return pts.filter fun p => !(p.1 ==. Num.ofRat 0)

/-- `jcirc(galaxy, bin0, bin1, runtime_warnings="error")`, _circ.py:109-232 -/
def jcircStrict (env : CircEnv F) (g : Galaxy F) (bin0 bin1 : F) : PyW (JCirc F) := do
  let df ← noWarn (g.toDataframe none (some ["ptypev", "total_energy", "Jx", "Jy", "Jz"]))
  let jxAll ← noWarn (df.numCol "Jx")
  let jyAll ← noWarn (df.numCol "Jy")
  let jzAll ← noWarn (df.numCol "Jz")
  let jrPart ← inPlaneStrict jxAll jyAll
  let eTot ← noWarn (df.numCol "total_energy")
  let bound := Np.whereIdx (eTot.map isBound)
  -- 124-125
  let eMin ← noWarn (Np.amin (Np.take eTot bound))
  let E ← divStrict (Np.take eTot bound) (Num.abs eMin)
  let jzMax ← noWarn (Np.amax ((Np.take jzAll bound).map Num.abs))
  let Jz ← divStrict (Np.take jzAll bound) jzMax
  -- 129-179
  let aux ← noWarn (energyBins bin0 bin1)
  let pts ← profileStrict env aux E Jz
  let x := pts.map (·.1)
  let y := pts.map (·.2)
  -- 182-188
  let types ← noWarn (df.col "ptypev")
  let jrStar ← inPlaneStrict (ofType types jxAll .stars) (ofType types jyAll .stars)
  let eTotS := ofType types eTot .stars
  let boundStar := Np.whereIdx (eTotS.map isBound)
  -- 191-200
  let eStar ← divStrict (Np.take eTotS boundStar) (Num.abs eMin)
  let jzStar ← divStrict (Np.take (ofType types jzAll .stars) boundStar) jzMax
  let jrMax ← noWarn (Np.amax ((Np.take jrPart bound).map Num.abs))
  let jrStarN ← divStrict (Np.take jrStar boundStar) jrMax
  let jCirc ← noWarn (Np.interp env.locate eStar x y)
  let eps ← divEachStrict jzStar jCirc
  let epsR ← divEachStrict jrStarN jCirc
  noWarn (finishCirc eTotS.length boundStar eStar jzStar eps epsR x y)

/-- the actions of the module `warnings` that do not raise -/
def quietActions : List String := ["default", "ignore", "always", "module", "once"]

/-- `jcirc(galaxy, bin0, bin1, runtime_warnings=action)`, _circ.py:235-296 -/
def jcircAction (env : CircEnv F) (g : Galaxy F) (bin0 bin1 : F) (action : String) : PyW (JCirc F) :=
  if action = "error" then jcircStrict env g bin0 bin1
  else if action ∈ quietActions then noWarn (jcirc env g bin0 bin1)
  else .error .assertionError

end GChop
