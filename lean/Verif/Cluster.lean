import Verif.Base

/-!
# Model of `galaxychop/models/_kmeans.py` and `galaxychop/models/_gaussian_mixture.py`

scikit-learn and joblib are not modelled: they are parameters.  A fit is an arbitrary function of the
keyword arguments, the random state and the matrix; a fitted mixture is an arbitrary value with the
methods the code calls.  `V` is the type of hyperparameter values, `σ` the state of the bit
generator of `self.random_state`, which the `RandomState` built from it shares.

Not modelled: the `y` and `attributes` arguments of `split`, which no line reads; invalid `n_jobs`;
`verbose` output of joblib.
-/

namespace GChop
open Pd

variable {F : Type} [Num F] {V σ M : Type}

/-- `get_attributes`, _kmeans.py:94 and _gaussian_mixture.py:97 -/
def clusterAttributes : List String := ["normalized_star_energy", "eps", "eps_r"]

/-! ## KMeans -/

/-- hyperparameters of `KMeans`, _kmeans.py:75-82, without `random_state` -/
structure KMeansParams (V : Type) where
  nComponents : V
  init : V
  nInit : V
  maxIter : V
  tol : V
  verbose : V
  algorithm : V

/-- the keyword arguments of `cluster.KMeans`, _kmeans.py:106-115, without `random_state` -/
def kmeansKwargs (p : KMeansParams V) : Dict String V :=
  [("n_clusters", p.nComponents), ("init", p.init), ("n_init", p.nInit), ("max_iter", p.maxIter),
   ("tol", p.tol), ("verbose", p.verbose), ("algorithm", p.algorithm)]

/-- `cluster.KMeans(**kwargs, random_state=random_state).fit_predict(X)`: the labels and the state
of the bit generator afterwards -/
abbrev KMeansFit (V σ F : Type) := Dict String V → σ → List (List F) → Py (List Int × σ)

/-- `KMeans.split`, _kmeans.py:97-117 -/
def kmeansSplit (fitPredict : KMeansFit V σ F) (p : KMeansParams V) (s : σ) (X : List (List F)) :
    Py ((List Int × Option (Mat F)) × σ) := do
  let (labels, s') ← fitPredict (kmeansKwargs p) s X
  return ((labels, none), s')

/-- `KMeans` as a decomposer, _kmeans.py:26-117 -/
def kmeans (fitPredict : KMeansFit V σ F) (p : KMeansParams V) (s : σ) : Decomposer F :=
  ⟨clusterAttributes, starsRowsMask, fun X _ => (kmeansSplit fitPredict p s X).map Prod.fst⟩

/-! ## GaussianMixture -/

/-- hyperparameters of `DynamicStarsGaussianDecomposerABC`, _gaussian_mixture.py:73-85, without
`random_state` -/
structure GmmParams (V : Type) where
  covarianceType : V
  tol : V
  regCovar : V
  maxIter : V
  nInit : V
  initParams : V
  weightsInit : V
  meansInit : V
  precisionsInit : V
  warmStart : V
  verbose : V
  verboseInterval : V

/-- the keyword arguments of `mixture.GaussianMixture`, _gaussian_mixture.py:154-169 and 231-246,
without `random_state` -/
def gmmKwargs (nComponents : V) (p : GmmParams V) : Dict String V :=
  [("n_components", nComponents), ("covariance_type", p.covarianceType), ("tol", p.tol),
   ("reg_covar", p.regCovar), ("max_iter", p.maxIter), ("n_init", p.nInit),
   ("init_params", p.initParams), ("weights_init", p.weightsInit), ("means_init", p.meansInit),
   ("precisions_init", p.precisionsInit), ("warm_start", p.warmStart), ("verbose", p.verbose),
   ("verbose_interval", p.verboseInterval)]

/-- scikit-learn's mixture and the numpy generator, as used by the code.  A fitted mixture is a
value of `M`. -/
structure GmmLib (V σ M F : Type) where
  /-- an int as a hyperparameter value -/
  int : Nat → V
  /-- `GaussianMixture(**kwargs, random_state=RandomState).fit(X)` -/
  fitState : Dict String V → σ → List (List F) → Py (M × σ)
  /-- `GaussianMixture(**kwargs, random_state=seed).fit(X)` -/
  fitSeed : Dict String V → Int → List (List F) → Py M
  predict : M → List (List F) → Py (List Int)
  predictProba : M → List (List F) → Py (Mat F)
  bic : M → List (List F) → Py F
  nComponents : M → Nat
  means : M → Mat F
  /-- `random_state.randint(np.iinfo(np.int32).max, size=n)` -/
  randint : σ → Nat → List Int × σ

/-- `randint` returns as many numbers as asked for -/
def GmmLib.OK (sk : GmmLib V σ M F) : Prop := ∀ s n, (sk.randint s n).1.length = n

/-- `GaussianMixture.split`, _gaussian_mixture.py:145-174 -/
def gmmSplit (sk : GmmLib V σ M F) (nComponents : V) (p : GmmParams V) (s : σ)
    (X : List (List F)) : Py ((List Int × Option (Mat F)) × σ) := do
  let (gmm, s') ← sk.fitState (gmmKwargs nComponents p) s X
  let labels ← sk.predict gmm X
  let proba ← sk.predictProba gmm X
  return ((labels, some proba), s')

/-- `GaussianMixture` as a decomposer, _gaussian_mixture.py:103-174 -/
def gaussianMixture (sk : GmmLib V σ M F) (nComponents : V) (p : GmmParams V) (s : σ) :
    Decomposer F :=
  ⟨clusterAttributes, starsRowsMask, fun X _ => (gmmSplit sk nComponents p s X).map Prod.fst⟩

/-! ## AutoGaussianMixture -/

/-- `_COMPONENTS_TO_TRY = np.arange(2, 16)`, _gaussian_mixture.py:228 -/
def componentsToTry : List Nat := List.range' 2 14

/-- `_try_components`, _gaussian_mixture.py:250-252 -/
def tryComponents (sk : GmmLib V σ M F) (p : GmmParams V) (X : List (List F)) (n : Nat)
    (seed : Int) : Py F := do
  let gmm ← sk.fitSeed (gmmKwargs (sk.int n) p) seed X
  let b ← sk.bic gmm X
  return b /. Num.ofInt X.length

/-- the slots of the tasks that have finished, `sched` being the order in which they do; the first
failure is raised -/
def runTasks {β : Type} (tasks : List (Py β)) : List Nat → List (Option β) → Py (List (Option β))
  | [], slots => .ok slots
  | i :: rest, slots =>
    match tasks[i]? with
    | some (.ok v) => runTasks tasks rest (slots.set i (some v))
    | some (.error e) => .error e
    | none => runTasks tasks rest slots

/-- `joblib.Parallel(n_jobs=...)(tasks)`, _gaussian_mixture.py:267-277: the workers finish the tasks
in some order, the results are returned in the order of the tasks. -/
def parallel {β : Type} (tasks : List (Py β)) (sched : List Nat) : Py (List β) := do
  let slots ← runTasks tasks sched (tasks.map fun _ => none)
  return slots.filterMap id

/-- `np.min` of an integer array; `ValueError` on an empty one -/
def npMinNat (l : List Nat) : Py Nat :=
  match l.min? with
  | some n => .ok n
  | none => .error .valueError

/-- the choice of the number of gaussians, _gaussian_mixture.py:283-290 -/
def selectComponents (cBic : F) (ctt : List Nat) (bics : List F) : Py Nat :=
  let bicMin := Num.sum (bics.drop (bics.length - 5)) /. Num.ofRat 5
  let delta := bics.map (· -. bicMin)
  let mask := Np.whereIdx (delta.map (· <=. cBic))
  npMinNat (Np.take ctt mask)

/-- `center[i, k]`; `IndexError` outside the array -/
def Mat.item (m : Mat F) (i k : Nat) : Py F :=
  match m.rows[i]? with
  | some r => if k < m.width then .ok (r.getD k Num.nan) else .error .indexError
  | none => .error .indexError

/-- `predict_proba[:, i]`; `IndexError` outside the array -/
def Mat.column (m : Mat F) (i : Nat) : Py (List F) :=
  if i < m.width then .ok (m.rows.map fun r => r.getD i Num.nan) else .error .indexError

/-- the four arrays of summed probabilities -/
structure FourSums (F : Type) where
  halo : List F
  bulge : List F
  coldDisk : List F
  warmDisk : List F
  deriving DecidableEq

/-- `c + predict_proba[:, i]` if the condition holds, _gaussian_mixture.py:307-314 -/
def addIf (cond : Bool) (c : List F) (proba : Mat F) (i : Nat) : Py (List F) :=
  if cond then do
    let col ← proba.column i
    Np.bcast (· +. ·) c col
  else .ok c

/-- the body of the loop, _gaussian_mixture.py:307-314 -/
def assignComponent (center proba : Mat F) (a : FourSums F) (i : Nat) : Py (FourSums F) := do
  let e ← center.item i 0
  let c ← center.item i 1
  let cold ← addIf (Num.ofRat (85 / 100) <=. c) a.coldDisk proba i
  let warm ← addIf ((c <. Num.ofRat (85 / 100)) && (Num.ofRat (1 / 2) <=. c)) a.warmDisk proba i
  let halo ← addIf ((c <. Num.ofRat (1 / 2)) && (Num.ofRat (-3 / 4) <=. e)) a.halo proba i
  let bulge ← addIf ((c <. Num.ofRat (1 / 2)) && (e <. Num.ofRat (-3 / 4))) a.bulge proba i
  return ⟨halo, bulge, cold, warm⟩

/-- the loop over the gaussians, _gaussian_mixture.py:306-314 -/
def assignLoop (center proba : Mat F) : List Nat → FourSums F → Py (FourSums F)
  | [], a => .ok a
  | i :: is, a => do
    let a ← assignComponent center proba a i
    assignLoop center proba is a

/-- `np.column_stack((halo, bulge, cold_disk, warm_disk))`, _gaussian_mixture.py:316; `ValueError`
if the lengths differ -/
def stackFour (a : FourSums F) : Py (Mat F) :=
  if a.bulge.length = a.halo.length ∧ a.coldDisk.length = a.halo.length ∧
      a.warmDisk.length = a.halo.length then
    .ok ⟨(List.range a.halo.length).map fun i =>
      [a.halo.getD i Num.nan, a.bulge.getD i Num.nan, a.coldDisk.getD i Num.nan,
       a.warmDisk.getD i Num.nan], 4⟩
  else .error .valueError

/-- the classification of the gaussians and of the particles, _gaussian_mixture.py:295-319; `n` is
`len(X)` -/
def classify (n nComponents : Nat) (center proba : Mat F) : Py (List Int × Option (Mat F)) := do
  let zeros : List F := List.replicate n Num.zero
  let sums ← assignLoop center proba (List.range nComponents) ⟨zeros, zeros, zeros, zeros⟩
  let probability ← stackFour sums
  let labels ← probability.rows.mapM Np.argmax
  return (labels.map fun (i : Nat) => (i : Int), some probability)

/-- `AutoGaussianMixture.split`, _gaussian_mixture.py:255-319; `sched` is the order in which the
parallel tasks finish -/
def autoSplit (sk : GmmLib V σ M F) (cBic : F) (p : GmmParams V) (sched : List Nat) (s : σ)
    (X : List (List F)) : Py ((List Int × Option (Mat F)) × σ) := do
  let (seeds, s1) := sk.randint s componentsToTry.length
  let bics ← parallel (List.zipWith (tryComponents sk p X) componentsToTry seeds) sched
  let n ← selectComponents cBic componentsToTry bics
  let (gmm, s2) ← sk.fitState (gmmKwargs (sk.int n) p) s1 X
  let proba ← sk.predictProba gmm X
  let res ← classify X.length (sk.nComponents gmm) (sk.means gmm) proba
  return (res, s2)

/-- `AutoGaussianMixture` as a decomposer, _gaussian_mixture.py:182-319 -/
def autoGaussianMixture (sk : GmmLib V σ M F) (cBic : F) (p : GmmParams V) (sched : List Nat)
    (s : σ) : Decomposer F :=
  ⟨clusterAttributes, starsRowsMask, fun X _ => (autoSplit sk cBic p sched s X).map Prod.fst⟩

end GChop
