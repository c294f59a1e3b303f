import Verif.Base

/-!
# Model of `galaxychop/models/_threshold.py`
-/

namespace GChop

variable {F : Type} [Num F]

/-- `np.where(mask)[0]` of a two-dimensional mask: the row number of every true entry. -/
def Np.where2 (mask : List (List Bool)) : List Nat :=
  mask.zipIdx.flatMap fun ri => (ri.1.filter id).map fun _ => ri.2

/-- `np.empty(n, dtype=int)`: whatever `junk` says is in memory -/
def npEmpty (junk : Nat → Int) (n : Nat) : List Int := (List.range n).map junk

/-- `check_eps_cut`, _threshold.py:82-94 -/
def thresholdCheck (epsCut : F) : Py Unit :=
  if (Num.ofRat 1 <. epsCut) || (epsCut <. Num.ofRat (-1)) then .error .valueError else .ok ()

/-- `JThreshold.split`, _threshold.py:107-123 -/
def thresholdSplit (junk : Nat → Int) (epsCut : F) (X : List (List F)) :
    Py (List Int × Option (Mat F)) := do
  let esf := Np.where2 (X.map fun r => r.map fun e => e <=. epsCut)
  let disk := Np.where2 (X.map fun r => r.map fun e => epsCut <. e)
  let labels := npEmpty junk X.length
  let labels ← Np.fillAt labels esf 0
  let labels ← Np.fillAt labels disk 1
  return (labels, none)

/-- `JThreshold(eps_cut=...)` with its attributes, _threshold.py:96-104 -/
def jThreshold (junk : Nat → Int) (epsCut : F) : Decomposer F where
  attributes := ["eps"]
  rowsMask := starsRowsMask
  split X _ := thresholdSplit junk epsCut X

end GChop
