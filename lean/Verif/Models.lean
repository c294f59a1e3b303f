import Verif.Cluster
import Verif.Histogram

/-!
# Model of the decomposer objects

`hparam` and `GalaxyDecomposerABC.__init_subclass__` (galaxychop/models/_base.py:140-232): every
decomposer class is an attrs class with keyword-only attributes.  The generated `__init__` binds the
arguments, applies the converters and then runs the validators, all in the order of the attributes,
inherited ones first.  Objects are frozen; the only state they refer to is the numpy generator in
`random_state`, which lives on a heap, because `np.random.default_rng` returns a generator it is given
as it is (two decomposers may share it).  A bit generator given as `random_state` is wrapped and keeps its
state, so it counts as the generator.

Simplifications: hyperparameters of a Python type other than the documented one reach `split` only
for the two library-backed classes (the library decides what to do with them); `n_bin`, `digits` and
`n_bin_E` that are not integers make `split` raise `TypeError`; an `eps_cut` that is not a float, int or
bool is taken not to compare with a float.  Objects are not deleted.  Equality and
hashing of decomposers are in `Verif/Equality.lean`.
-/

namespace GChop
open Pd

variable {F : Type} [Num F] {σ M : Type}

/-- A value of a hyperparameter: a plain Python value or a reference to a numpy generator. -/
inductive HVal (F : Type) where
  | py (v : PyVal F)
  | gen (addr : Nat)

/-- the concrete decomposer classes, models/__init__.py:34-46 -/
inductive Cls where
  | jThreshold
  | jHistogram
  | jeHistogram
  | kMeans
  | gaussianMixture
  | autoGaussianMixture
  deriving DecidableEq, Repr

/-- `type(self).__name__`, _base.py:287 -/
def Cls.name : Cls → String
  | .jThreshold => "JThreshold"
  | .jHistogram => "JHistogram"
  | .jeHistogram => "JEHistogram"
  | .kMeans => "KMeans"
  | .gaussianMixture => "GaussianMixture"
  | .autoGaussianMixture => "AutoGaussianMixture"

/-- `cbins = hparam(default=utils.DEFAULT_CBIN)`, _base.py:186 -/
def cbinsParam : Dict String (HVal F) :=
  [("cbins", .py (.tuple [.float defaultCbin.1, .float defaultCbin.2]))]

/-- the hyperparameters of `JHistogram`, _histogram.py:64-66 -/
def histogramParams : Dict String (HVal F) :=
  [("n_bin", .py (.int 100)), ("digits", .py (.int 2)), ("random_state", .py .none)]

/-- the hyperparameters of `DynamicStarsGaussianDecomposerABC`, _gaussian_mixture.py:73-85 -/
def mixtureParams : Dict String (HVal F) :=
  [("covariance_type", .py (.str "full")), ("tol", .py (.float (Num.ofRat (1/1000)))),
   ("reg_covar", .py (.float (Num.ofRat (1/1000000)))), ("max_iter", .py (.int 100)),
   ("n_init", .py (.int 10)), ("init_params", .py (.str "kmeans")), ("weights_init", .py .none),
   ("means_init", .py .none), ("precisions_init", .py .none), ("random_state", .py .none),
   ("warm_start", .py (.bool false)), ("verbose", .py (.int 0)), ("verbose_interval", .py (.int 10))]

/-- The attributes of each class with their defaults, in the order of attrs: inherited first.
_base.py:186, _threshold.py:80, _histogram.py:64-66 and 222, _kmeans.py:75-82,
_gaussian_mixture.py:73-85, 142 and 225-226 -/
def Cls.hparams : Cls → Dict String (HVal F)
  | .jThreshold => cbinsParam ++ [("eps_cut", .py (.float (Num.ofRat (6/10))))]
  | .jHistogram => cbinsParam ++ histogramParams
  | .jeHistogram => cbinsParam ++ histogramParams ++ [("n_bin_E", .py (.int 20))]
  | .kMeans => cbinsParam ++
      [("n_components", .py (.int 2)), ("init", .py (.str "k-means++")), ("n_init", .py (.int 10)),
       ("max_iter", .py (.int 300)), ("tol", .py (.float (Num.ofRat (1/10000)))),
       ("verbose", .py (.int 0)), ("random_state", .py .none), ("algorithm", .py (.str "auto"))]
  | .gaussianMixture => cbinsParam ++ mixtureParams ++ [("n_components", .py (.int 2))]
  | .autoGaussianMixture => cbinsParam ++ mixtureParams ++
      [("c_bic", .py (.float (Num.ofRat (1/10)))), ("n_jobs", .py .none)]

/-- a decomposer object: its class and its attributes -/
structure Obj (F : Type) where
  cls : Cls
  attrs : Dict String (HVal F)

/-- the libraries behind the decomposers -/
structure Lib (F σ M : Type) where
  rng : Rng σ
  kmeans : KMeansFit (HVal F) σ F
  gmm : GmmLib (HVal F) σ M F
  /-- the generator `np.random.default_rng(seed)` for a seed that is not `None` -/
  seeded : PyVal F → Py σ
  /-- the generator of the `n`-th call of `np.random.default_rng(None)` -/
  entropy : Nat → σ
  /-- the generator after a `split` that raised, given the class and the other hyperparameters -/
  afterError : Cls → Dict String (HVal F) → σ → List (List F) → σ

/-- the state of a session: generators, decomposers, how often entropy was asked for -/
structure World (F σ : Type) where
  heap : List σ
  objs : List (Obj F)
  fresh : Nat

/-- the converter `np.random.default_rng` of `random_state`: the address of the generator -/
def defaultRng (lib : Lib F σ M) (w : World F σ) : HVal F → Py Nat × World F σ
  | .gen r => (.ok r, w)
  | .py .none =>
    (.ok w.heap.length, { w with heap := w.heap ++ [lib.entropy w.fresh], fresh := w.fresh + 1 })
  | .py v =>
    match lib.seeded v with
    | .ok s => (.ok w.heap.length, { w with heap := w.heap ++ [s] })
    | .error e => (.error e, w)

/-- `check_eps_cut` on an arbitrary value, _threshold.py:82-94: values that do not compare with a float
raise `TypeError` -/
def epsCutValidator : HVal F → Py Unit
  | .py (.float x) => thresholdCheck x
  | .py (.int i) => thresholdCheck (Num.ofInt i : F)
  | .py (.bool b) => thresholdCheck (Num.ofInt (if b then 1 else 0) : F)
  | _ => .error .typeError

/-- `_bins_validator` on an arbitrary value -/
def cbinsCheck : HVal F → Py Unit
  | .py v => cbinsValidator v
  | .gen _ => .error .valueError

/-- the validators in the order of the attributes -/
def validate (cls : Cls) (attrs : Dict String (HVal F)) : Py Unit := do
  cbinsCheck ((Dict.get? attrs "cbins").getD (.py .other))
  if cls = .jThreshold then epsCutValidator ((Dict.get? attrs "eps_cut").getD (.py .other))

/-- the arguments bound to the keyword-only parameters of `__init__` -/
def bindArgs (cls : Cls) (kwargs : Dict String (HVal F)) : Dict String (HVal F) :=
  (Cls.hparams cls).map fun kv => (kv.1, (Dict.get? kwargs kv.1).getD kv.2)

/-- `Cls(*args, **kwargs)` with `nPos` positional arguments: the generated `__init__`, _base.py:164, 170 and
199-216 -/
def construct (lib : Lib F σ M) (w : World F σ) (cls : Cls) (nPos : Nat)
    (kwargs : Dict String (HVal F)) : Py (Obj F) × World F σ :=
  if nPos ≠ 0 ∨ ¬ kwargs.keys.all (fun k => (Cls.hparams (F := F) cls).keys.contains k) then
    (.error .typeError, w)
  else
    let attrs := bindArgs cls kwargs
    match Dict.get? attrs "random_state" with
    | none => ((validate cls attrs).map fun _ => ⟨cls, attrs⟩, w)
    | some v =>
      match defaultRng lib w v with
      | (.error e, w) => (.error e, w)
      | (.ok r, w) =>
        let attrs := Dict.set attrs "random_state" (.gen r)
        ((validate cls attrs).map fun _ => ⟨cls, attrs⟩, w)

/-- `sep.join(l)` -/
def pyJoin (sep : String) : List String → String
  | [] => ""
  | [a] => a
  | a :: b :: l => a ++ sep ++ pyJoin sep (b :: l)

/-- `repr(x)`, _base.py:285-295; `reprV` is `repr` of the values -/
def Obj.repr (reprV : HVal F → String) (o : Obj F) : String :=
  o.cls.name ++ "(" ++ pyJoin ", " (o.attrs.map fun kv => kv.1 ++ "=" ++ reprV kv.2) ++ ")"

/-- the address of the generator, if the class has one -/
def Obj.gen? (o : Obj F) : Option Nat :=
  match Dict.get? o.attrs "random_state" with
  | some (.gen r) => some r
  | _ => none

/-- the hyperparameters other than the generator -/
def Obj.params (o : Obj F) : Dict String (HVal F) := Dict.erase o.attrs "random_state"

/-- an attribute of the object -/
def attrOf (p : Dict String (HVal F)) (k : String) : HVal F := (Dict.get? p k).getD (.py .other)

/-- an integer attribute -/
def intOf (p : Dict String (HVal F)) (k : String) : Py Int :=
  match attrOf p k with
  | .py (.int i) => .ok i
  | _ => .error .typeError

/-- a number attribute -/
def numOf (p : Dict String (HVal F)) (k : String) : Py F :=
  match attrOf p k with
  | .py (.float x) => .ok x
  | .py (.int i) => .ok (Num.ofInt i)
  | .py (.bool b) => .ok (Num.ofInt (if b then 1 else 0))
  | _ => .error .typeError

/-- `self.cbins` -/
def cbinsOf (p : Dict String (HVal F)) : F × F :=
  match attrOf p "cbins" with
  | .py (.tuple [.float a, .float b]) => (a, b)
  | _ => defaultCbin

/-- the arguments of scikit-learn's KMeans -/
def kmeansOf (p : Dict String (HVal F)) : KMeansParams (HVal F) :=
  ⟨attrOf p "n_components", attrOf p "init", attrOf p "n_init", attrOf p "max_iter", attrOf p "tol",
   attrOf p "verbose", attrOf p "algorithm"⟩

/-- the arguments of scikit-learn's GaussianMixture -/
def gmmOf (p : Dict String (HVal F)) : GmmParams (HVal F) where
  covarianceType := attrOf p "covariance_type"
  tol := attrOf p "tol"
  regCovar := attrOf p "reg_covar"
  maxIter := attrOf p "max_iter"
  nInit := attrOf p "n_init"
  initParams := attrOf p "init_params"
  weightsInit := attrOf p "weights_init"
  meansInit := attrOf p "means_init"
  precisionsInit := attrOf p "precisions_init"
  warmStart := attrOf p "warm_start"
  verbose := attrOf p "verbose"
  verboseInterval := attrOf p "verbose_interval"

/-- what a single call of `decompose` meets: the galaxy, the sort and interpolation of `jcirc`, the memory
of `np.empty` and the order in which parallel workers finish -/
structure Call (F : Type) where
  galaxy : Galaxy F
  env : CircEnv F
  junk : Nat → Int
  sched : List Nat

/-- `get_attributes` of each class -/
def Cls.attributes : Cls → List String
  | .jThreshold | .jHistogram => ["eps"]
  | .jeHistogram => ["normalized_star_energy", "eps"]
  | .kMeans | .gaussianMixture | .autoGaussianMixture => clusterAttributes

/-- `split` of each class, with the state of the generator -/
def Cls.split (lib : Lib F σ M) (c : Call F) (cls : Cls) (p : Dict String (HVal F)) (s : Option σ)
    (X : List (List F)) : Py ((List Int × Option (Mat F)) × Option σ) :=
  match cls, s with
  | .jThreshold, s => do
    let cut ← numOf p "eps_cut"
    let r ← thresholdSplit c.junk cut X
    return (r, s)
  | .jHistogram, some s => do
    let n ← intOf p "n_bin"
    let d ← intOf p "digits"
    let (l, s) ← jHistogramSplit c.junk lib.rng n d X s
    return ((l, none), some s)
  | .jeHistogram, some s => do
    let n ← intOf p "n_bin"
    let d ← intOf p "digits"
    let nE ← intOf p "n_bin_E"
    let (l, s) ← jeHistogramSplit c.junk lib.rng n d nE X s
    return ((l, none), some s)
  | .kMeans, some s => do
    let (r, s) ← kmeansSplit lib.kmeans (kmeansOf p) s X
    return (r, some s)
  | .gaussianMixture, some s => do
    let (r, s) ← gmmSplit lib.gmm (attrOf p "n_components") (gmmOf p) s X
    return (r, some s)
  | .autoGaussianMixture, some s => do
    let cBic ← numOf p "c_bic"
    let (r, s) ← autoSplit lib.gmm cBic (gmmOf p) c.sched s X
    return (r, some s)
  | _, none => .error .attributeError

/-- the object seen as a decomposer, for one call -/
def Cls.decomposer (lib : Lib F σ M) (c : Call F) (cls : Cls) (p : Dict String (HVal F))
    (s : Option σ) : Decomposer F :=
  ⟨cls.attributes, starsRowsMask, fun X _ => (Cls.split lib c cls p s X).map Prod.fst⟩

/-- the rows that reach `split`, _base.py:503-513 -/
def cleanRows (env : CircEnv F) (cbins : F × F) (dec : Decomposer F) (g : Galaxy F) :
    Py (List (List F)) := do
  let (X, y) ← attributesMatrix env cbins g dec.attributes
  let mask ← dec.rowsMask X y
  let xClean ← Np.compress mask X
  let _ ← Np.compress mask y
  return xClean.map fun r => r.map Cell.toNum

/-- `x.decompose(galaxy)`: the result and the generator afterwards -/
def decomposeWith (lib : Lib F σ M) (c : Call F) (cls : Cls) (p : Dict String (HVal F))
    (s : Option σ) : Py (Components F) × Option σ :=
  let dec := Cls.decomposer lib c cls p s
  (decompose c.env (cbinsOf p) dec c.galaxy,
    match cleanRows c.env (cbinsOf p) dec c.galaxy with
    | .error _ => s
    | .ok X =>
      match Cls.split lib c cls p s X with
      | .ok r => r.2
      | .error _ => s.map fun s => lib.afterError cls p s X)

/-- the operations of a session -/
inductive Op (F σ : Type) where
  /-- `Cls(*args, **kwargs)` -/
  | make (cls : Cls) (nPos : Nat) (kwargs : Dict String (HVal F))
  /-- `x.decompose(galaxy)` of the `i`-th object made -/
  | decompose (i : Nat) (c : Call F)
  /-- `x.name = value` -/
  | setattr (i : Nat) (name : String) (v : HVal F)
  /-- any other use of a generator -/
  | use (addr : Nat) (f : σ → σ)

/-- what an operation shows -/
inductive Out (F : Type) where
  | made (r : Py (Obj F))
  | components (r : Py (Components F))
  | done (r : Py Unit)

/-- the generator state of an object -/
def World.stateOf (w : World F σ) (o : Obj F) : Option σ := o.gen?.bind fun r => w.heap[r]?

/-- one operation -/
def step (lib : Lib F σ M) (w : World F σ) : Op F σ → Out F × World F σ
  | .make cls nPos kwargs =>
    match construct lib w cls nPos kwargs with
    | (.ok o, w) => (.made (.ok o), { w with objs := w.objs ++ [o] })
    | (.error e, w) => (.made (.error e), w)
  | .decompose i c =>
    match w.objs[i]? with
    | none => (.components (.error .indexError), w)
    | some o =>
      let (r, s) := decomposeWith lib c o.cls o.params (w.stateOf o)
      (.components r,
        match o.gen?, s with
        | some a, some s => { w with heap := w.heap.set a s }
        | _, _ => w)
  | .setattr _ _ _ => (.done (.error .attributeError), w)
  | .use a f => (.done (.ok ()), { w with heap := w.heap.modify a f })

/-- a session: what each operation shows -/
def session (lib : Lib F σ M) : World F σ → List (Op F σ) → List (Out F)
  | _, [] => []
  | w, op :: ops => (step lib w op).1 :: session lib (step lib w op).2 ops

end GChop
