import Verif.Data

/-!
# Model of `galaxychop/utils/_align.py`
-/

namespace GChop
open Pd

variable {F : Type} [Num F]

/-- the radius of one particle, _align.py:27 -/
def radius (x y z : F) : F := Num.sqrt ((Num.sq x +. Num.sq y) +. Num.sq z)

/-- apply a function of three arguments along three columns -/
def zip3With {α β γ δ : Type} (f : α → β → γ → δ) : List α → List β → List γ → List δ
  | a :: as, b :: bs, c :: cs => f a b c :: zip3With f as bs cs
  | _, _, _ => []

/-- `_make_mask`, _align.py:26-32, as a boolean mask (with a cut the code returns the positions of
the true entries, which select the same elements). -/
def makeMask (x y z : List F) (rCut : Option F) : List Bool :=
  let r := zip3With radius x y z
  match rCut with
  | none => List.replicate r.length true
  | some c => r.map (· <. c)

/-- A 3×3 matrix by rows. -/
structure Mat3 (F : Type) where
  e1x : F
  e1y : F
  e1z : F
  e2x : F
  e2y : F
  e2z : F
  e3x : F
  e3y : F
  e3z : F
  deriving DecidableEq

/-- `np.sum((m * J)[mask])`, _align.py:63-67; the three columns have equal length. -/
def maskedTotal (mask : List Bool) (m j : List F) : F :=
  Num.sum (((mask.zip (List.zipWith (· *. ·) m j)).filter (·.1)).map (·.2))

/-- the matrix built from the total angular momentum, _align.py:69-84 -/
def rotFromJ (rjx rjy rjz : F) : Mat3 F :=
  let rjp := Num.sqrt (Num.sq rjx +. Num.sq rjy)
  let rj := Num.sqrt ((Num.sq rjx +. Num.sq rjy) +. Num.sq rjz)
  { e1x := rjy /. rjp
    e1y := Num.neg rjx /. rjp
    e1z := Num.ofRat 0
    e2x := (rjx *. rjz) /. (rjp *. rj)
    e2y := (rjy *. rjz) /. (rjp *. rj)
    e2z := Num.neg rjp /. rj
    e3x := rjx /. rj
    e3y := rjy /. rj
    e3z := rjz /. rj }

/-- `_get_rot_matrix`, _align.py:35-86. -/
def getRotMatrix (m x y z jx jy jz : List F) (rCut : Option F) : Mat3 F :=
  let mask := makeMask x y z rCut
  rotFromJ (maskedTotal mask m jx) (maskedTotal mask m jy) (maskedTotal mask m jz)

/-- one component of `np.dot(A, v)` (order and rounding are those of `Num.dot`) -/
def dot3 (a b c x y z : F) : F := Num.dot [(a, x), (b, y), (c, z)]

/-- the three rows of `np.dot(A, [x, y, z])`, _align.py:139-146 -/
def rotateCols (A : Mat3 F) (x y z : List F) : List F × List F × List F :=
  (zip3With (dot3 A.e1x A.e1y A.e1z) x y z,
   zip3With (dot3 A.e2x A.e2y A.e2z) x y z,
   zip3With (dot3 A.e3x A.e3y A.e3z) x y z)

/-- `r_cut is not None and r_cut <= 0.0`, _align.py:111 -/
def badCut (rCut : Option F) : Bool :=
  match rCut with
  | none => false
  | some c => c <=. Num.ofRat 0

/-- rotate positions and velocities of a table with columns x, y, z, vx, vy, vz,
_align.py:138-146 -/
def rotateFrame (A : Mat3 F) (df : DF F) :
    Py ((List F × List F × List F) × (List F × List F × List F)) := do
  let x ← df.numCol "x"
  let y ← df.numCol "y"
  let z ← df.numCol "z"
  let vx ← df.numCol "vx"
  let vy ← df.numCol "vy"
  let vz ← df.numCol "vz"
  return (rotateCols A x y z, rotateCols A vx vy vz)

/-- `star_align(galaxy, r_cut=...)`, _align.py:89-172. -/
def starAlign (g : Galaxy F) (rCut : Option F) : Py (Galaxy F) := do
  if badCut rCut then .error .valueError
  else
    let starsDf ← g.stars.toDataframe
      (some ["m", "Jx", "Jy", "Jz", "x", "y", "z", "vx", "vy", "vz"])
    let dmDf ← g.darkMatter.toDataframe (some ["x", "y", "z", "vx", "vy", "vz"])
    let gasDf ← g.gas.toDataframe (some ["x", "y", "z", "vx", "vy", "vz"])
    let A := getRotMatrix (← starsDf.numCol "m") (← starsDf.numCol "x") (← starsDf.numCol "y")
      (← starsDf.numCol "z") (← starsDf.numCol "Jx") (← starsDf.numCol "Jy")
      (← starsDf.numCol "Jz") rCut
    let s ← rotateFrame A starsDf
    let d ← rotateFrame A dmDf
    let h ← rotateFrame A gasDf
    mkgalaxyKw (Dict.update (galaxyAsKwargs g) [
      ("x_s", .arr s.1.1), ("y_s", .arr s.1.2.1), ("z_s", .arr s.1.2.2),
      ("vx_s", .arr s.2.1), ("vy_s", .arr s.2.2.1), ("vz_s", .arr s.2.2.2),
      ("x_dm", .arr d.1.1), ("y_dm", .arr d.1.2.1), ("z_dm", .arr d.1.2.2),
      ("vx_dm", .arr d.2.1), ("vy_dm", .arr d.2.2.1), ("vz_dm", .arr d.2.2.2),
      ("x_g", .arr h.1.1), ("y_g", .arr h.1.2.1), ("z_g", .arr h.1.2.2),
      ("vx_g", .arr h.2.1), ("vy_g", .arr h.2.2.1), ("vz_g", .arr h.2.2.2)])

/-- `np.sum(J[mask] * m[mask])`, _align.py:202-204 -/
def maskedTotal' (mask : List Bool) (m j : List F) : F :=
  let sel (l : List F) := ((mask.zip l).filter (·.1)).map (·.2)
  Num.sum (List.zipWith (· *. ·) (sel j) (sel m))

/-- `is_star_aligned(galaxy, r_cut, rtol, atol)`, _align.py:175-207. -/
def isStarAligned (g : Galaxy F) (rCut : Option F) (rtol atol : F) : Py Bool := do
  let df ← g.stars.toDataframe (some ["m", "x", "y", "z", "Jx", "Jy", "Jz"])
  let m ← df.numCol "m"
  let mask := makeMask (← df.numCol "x") (← df.numCol "y") (← df.numCol "z") rCut
  let jx := maskedTotal' mask m (← df.numCol "Jx")
  let jy := maskedTotal' mask m (← df.numCol "Jy")
  let jz := maskedTotal' mask m (← df.numCol "Jz")
  let j := Num.sqrt ((Num.sq jx +. Num.sq jy) +. Num.sq jz)
  return Np.isclose rtol atol jz j

end GChop
