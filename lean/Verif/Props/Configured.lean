import Verif.Props.Session

/-!
# C98: from the keyword arguments of a decomposer to its decomposition

For each class: what `Cls(**kwargs).decompose(galaxy)` computes, with every hyperparameter under its
own name and every default written out.
-/

set_option linter.unusedSectionVars false

namespace GChop
open Pd

variable {F : Type} [Num F] {σ M : Type}

/-- the argument of this name, or the default -/
def argOr (kw : Dict String (HVal F)) (k : String) (d : PyVal F) : HVal F :=
  (Dict.get? kw k).getD (.py d)

/-- the bins of `jcirc`: the argument `cbins`, or 0.05 and 0.005 -/
def BinsAre (kw : Dict String (HVal F)) (a b : F) : Prop :=
  argOr kw "cbins" (.tuple [.float (Num.ofRat (5/100)), .float (Num.ofRat (5/1000))]) =
    .py (.tuple [.float a, .float b])

/-- a value that Python takes for the number `x` -/
def IsNumber (v : HVal F) (x : F) : Prop :=
  v = .py (.float x) ∨ (∃ i, v = .py (.int i) ∧ x = Num.ofInt i) ∨
    ∃ b, v = .py (.bool b) ∧ x = Num.ofInt (if b then 1 else 0)

theorem attrOf_params {lib : Lib F σ M} {w w' : World F σ} {cls : Cls} {kw : Dict String (HVal F)}
    {o : Obj F} (h : construct lib w cls 0 kw = (.ok o, w')) {k : String} {d : PyVal F}
    (hk : k ≠ "random_state") (hd : Dict.get? (Cls.hparams cls) k = some (HVal.py d)) :
    attrOf o.params k = argOr kw k d := by
  obtain ⟨-, -, h3, h4, -⟩ := C72_attributes h
  rw [attrOf, Obj.params, Dict.get?_erase, if_neg (Ne.symm hk), argOr]
  cases hg : Dict.get? kw k with
  | none => rw [h4 k hk hg, hd]; rfl
  | some v => rw [h3 k v hk hg]; rfl

/-- the defaults of the hyperparameters -/
macro "lookup" : tactic => `(tactic|
  simp [Cls.hparams, cbinsParam, histogramParams, mixtureParams, Dict.get?])

theorem cbinsOf_params {lib : Lib F σ M} {w w' : World F σ} {cls : Cls} {kw : Dict String (HVal F)}
    {o : Obj F} (h : construct lib w cls 0 kw = (.ok o, w')) {a b : F} (hb : BinsAre kw a b) :
    cbinsOf o.params = (a, b) := by
  have e : attrOf o.params "cbins" = argOr kw "cbins"
      (.tuple [.float (Num.ofRat (5/100)), .float (Num.ofRat (5/1000))]) := by
    refine attrOf_params h (by decide) ?_
    have e1 : (1 / 20 : ℚ) = 5 / 100 := by norm_num
    have e2 : (1 / 200 : ℚ) = 5 / 1000 := by norm_num
    cases cls <;> simp [Cls.hparams, cbinsParam, Dict.get?, defaultCbin, e1, e2]
  rw [cbinsOf, e, hb]

theorem numOf_params {p : Dict String (HVal F)} {k : String} {x : F}
    (h : IsNumber (attrOf p k) x) : numOf p k = .ok x := by
  unfold numOf
  rcases h with h | ⟨i, h, rfl⟩ | ⟨b, h, rfl⟩ <;> rw [h]

theorem intOf_params {p : Dict String (HVal F)} {k : String} {i : Int}
    (h : attrOf p k = .py (.int i)) : intOf p k = .ok i := by
  rw [intOf, h]

/-- the answer to a `decompose` call in a session -/
theorem step_decompose (lib : Lib F σ M) {w : World F σ} {i : Nat} {o : Obj F}
    (ho : w.objs[i]? = some o) (c : Call F) :
    (step lib w (.decompose i c)).1 = .components
      (decompose c.env (cbinsOf o.params) (Cls.decomposer lib c o.cls o.params (w.stateOf o))
        c.galaxy) := by
  simp only [step, ho, decomposeWith]

/-- C98: every successfully constructed object has bins. -/
theorem C98_bins {lib : Lib F σ M} {w w' : World F σ} {cls : Cls} {kw : Dict String (HVal F)}
    {o : Obj F} (h : construct lib w cls 0 kw = (.ok o, w')) : ∃ a b, BinsAre kw a b := by
  obtain ⟨-, -, h3, h4, ⟨a, b, h5, -⟩, -⟩ := C72_attributes h
  refine ⟨a, b, ?_⟩
  have e1 : (1 / 20 : ℚ) = 5 / 100 := by norm_num
  have e2 : (1 / 200 : ℚ) = 5 / 1000 := by norm_num
  have hd : Dict.get? (Cls.hparams (F := F) cls) "cbins" =
      some (.py (.tuple [.float (Num.ofRat (5/100)), .float (Num.ofRat (5/1000))])) := by
    cases cls <;> simp [Cls.hparams, cbinsParam, Dict.get?, defaultCbin, e1, e2]
  unfold BinsAre argOr
  cases hg : Dict.get? kw "cbins" with
  | none => rw [h4 _ (by decide) hg, hd] at h5; exact Option.some.inj h5
  | some v => rw [h3 _ v (by decide) hg] at h5; exact Option.some.inj h5

section classes

variable {lib : Lib F σ M} {w₀ w₁ w : World F σ} {kw : Dict String (HVal F)} {o : Obj F} {i : Nat}
  {a b : F}

/-- C98: `JThreshold(eps_cut=0.6)`: the stars with `eps` above the cut are the disk. -/
theorem C98_jthreshold (h : construct lib w₀ .jThreshold 0 kw = (.ok o, w₁))
    (ho : w.objs[i]? = some o) (hb : BinsAre kw a b) {cut : F}
    (hc : IsNumber (argOr kw "eps_cut" (.float (Num.ofRat (6/10)))) cut) (c : Call F) :
    (step lib w (.decompose i c)).1 =
      .components (decompose c.env (a, b) (jThreshold c.junk cut) c.galaxy) := by
  have hcls := (C72_attributes h).1
  rw [step_decompose lib ho, cbinsOf_params h hb, hcls]
  congr 2
  have e : numOf o.params "eps_cut" = .ok cut :=
    numOf_params (by
      rw [attrOf_params h (by decide) (d := .float (Num.ofRat (6/10))) (by lookup)]
      exact hc)
  unfold Cls.decomposer jThreshold
  congr 1
  funext X _
  simp only [Cls.split, e]
  show Except.map Prod.fst (thresholdSplit c.junk cut X >>= fun r => .ok (r, w.stateOf o)) = _
  cases thresholdSplit c.junk cut X <;> rfl

/-- C98: `JHistogram(n_bin=100, digits=2)`. -/
theorem C98_jhistogram (h : construct lib w₀ .jHistogram 0 kw = (.ok o, w₁))
    (ho : w.objs[i]? = some o) {s : σ} (hs : w.stateOf o = some s) (hb : BinsAre kw a b)
    {nBin digits : Int} (h1 : argOr kw "n_bin" (.int 100) = .py (.int nBin))
    (h2 : argOr kw "digits" (.int 2) = .py (.int digits)) (c : Call F) :
    (step lib w (.decompose i c)).1 =
      .components (decompose c.env (a, b) (jHistogram c.junk lib.rng nBin digits s) c.galaxy) := by
  have hcls := (C72_attributes h).1
  rw [step_decompose lib ho, cbinsOf_params h hb, hcls, hs]
  congr 2
  have e1 : intOf o.params "n_bin" = .ok nBin :=
    intOf_params (by rw [attrOf_params h (by decide) (d := .int 100) (by lookup)]; exact h1)
  have e2 : intOf o.params "digits" = .ok digits :=
    intOf_params (by rw [attrOf_params h (by decide) (d := .int 2) (by lookup)]; exact h2)
  unfold Cls.decomposer jHistogram
  congr 1
  funext X _
  simp only [Cls.split, e1, e2]
  show Except.map Prod.fst (jHistogramSplit c.junk lib.rng nBin digits X s >>=
    fun r => .ok ((r.1, none), some r.2)) = _
  cases jHistogramSplit c.junk lib.rng nBin digits X s <;> rfl

/-- C98: `JEHistogram(n_bin=100, digits=2, n_bin_E=20)`. -/
theorem C98_jehistogram (h : construct lib w₀ .jeHistogram 0 kw = (.ok o, w₁))
    (ho : w.objs[i]? = some o) {s : σ} (hs : w.stateOf o = some s) (hb : BinsAre kw a b)
    {nBin digits nBinE : Int} (h1 : argOr kw "n_bin" (.int 100) = .py (.int nBin))
    (h2 : argOr kw "digits" (.int 2) = .py (.int digits))
    (h3 : argOr kw "n_bin_E" (.int 20) = .py (.int nBinE)) (c : Call F) :
    (step lib w (.decompose i c)).1 =
      .components (decompose c.env (a, b) (jeHistogram c.junk lib.rng nBin digits nBinE s)
        c.galaxy) := by
  have hcls := (C72_attributes h).1
  rw [step_decompose lib ho, cbinsOf_params h hb, hcls, hs]
  congr 2
  have e1 : intOf o.params "n_bin" = .ok nBin :=
    intOf_params (by rw [attrOf_params h (by decide) (d := .int 100) (by lookup)]; exact h1)
  have e2 : intOf o.params "digits" = .ok digits :=
    intOf_params (by rw [attrOf_params h (by decide) (d := .int 2) (by lookup)]; exact h2)
  have e3 : intOf o.params "n_bin_E" = .ok nBinE :=
    intOf_params (by rw [attrOf_params h (by decide) (d := .int 20) (by lookup)]; exact h3)
  unfold Cls.decomposer jeHistogram
  congr 1
  funext X _
  simp only [Cls.split, e1, e2, e3]
  show Except.map Prod.fst (jeHistogramSplit c.junk lib.rng nBin digits nBinE X s >>=
    fun r => .ok ((r.1, none), some r.2)) = _
  cases jeHistogramSplit c.junk lib.rng nBin digits nBinE X s <;> rfl

/-- C98: `KMeans(...)`: energy, `eps` and `eps_r` of the stars go to scikit-learn's KMeans with these
arguments; there are no probabilities. -/
theorem C98_kmeans (h : construct lib w₀ .kMeans 0 kw = (.ok o, w₁))
    (ho : w.objs[i]? = some o) {s : σ} (hs : w.stateOf o = some s) (hb : BinsAre kw a b)
    (c : Call F) :
    (step lib w (.decompose i c)).1 = .components (decompose c.env (a, b)
      ⟨["normalized_star_energy", "eps", "eps_r"], starsRowsMask, fun X _ => do
        let (labels, _) ← lib.kmeans
          [("n_clusters", argOr kw "n_components" (.int 2)),
           ("init", argOr kw "init" (.str "k-means++")),
           ("n_init", argOr kw "n_init" (.int 10)),
           ("max_iter", argOr kw "max_iter" (.int 300)),
           ("tol", argOr kw "tol" (.float (Num.ofRat (1/10000)))),
           ("verbose", argOr kw "verbose" (.int 0)),
           ("algorithm", argOr kw "algorithm" (.str "auto"))] s X
        return (labels, none)⟩ c.galaxy) := by
  have hcls := (C72_attributes h).1
  rw [step_decompose lib ho, cbinsOf_params h hb, hcls, hs]
  congr 2
  unfold Cls.decomposer
  have e : kmeansKwargs (kmeansOf o.params) =
      [("n_clusters", argOr kw "n_components" (.int 2)),
           ("init", argOr kw "init" (.str "k-means++")),
           ("n_init", argOr kw "n_init" (.int 10)),
           ("max_iter", argOr kw "max_iter" (.int 300)),
           ("tol", argOr kw "tol" (.float (Num.ofRat (1/10000)))),
           ("verbose", argOr kw "verbose" (.int 0)),
           ("algorithm", argOr kw "algorithm" (.str "auto"))] := by
    unfold kmeansKwargs kmeansOf
    simp only
    rw [attrOf_params h (k := "n_components") (by decide) (d := .int 2) (by lookup),
      attrOf_params h (k := "init") (by decide) (d := .str "k-means++") (by lookup),
      attrOf_params h (k := "n_init") (by decide) (d := .int 10) (by lookup),
      attrOf_params h (k := "max_iter") (by decide) (d := .int 300) (by lookup),
      attrOf_params h (k := "tol") (by decide) (d := .float (Num.ofRat (1/10000))) (by lookup),
      attrOf_params h (k := "verbose") (by decide) (d := .int 0) (by lookup),
      attrOf_params h (k := "algorithm") (by decide) (d := .str "auto") (by lookup)]
  congr 1
  funext X _
  simp only [Cls.split, kmeansSplit, e]
  generalize lib.kmeans _ s X = r
  cases r <;> rfl

/-- the arguments of scikit-learn's GaussianMixture other than the number of components and the
generator -/
def mixtureArgs (kw : Dict String (HVal F)) : Dict String (HVal F) :=
  [("covariance_type", argOr kw "covariance_type" (.str "full")),
   ("tol", argOr kw "tol" (.float (Num.ofRat (1/1000)))),
   ("reg_covar", argOr kw "reg_covar" (.float (Num.ofRat (1/1000000)))),
   ("max_iter", argOr kw "max_iter" (.int 100)),
   ("n_init", argOr kw "n_init" (.int 10)),
   ("init_params", argOr kw "init_params" (.str "kmeans")),
   ("weights_init", argOr kw "weights_init" .none),
   ("means_init", argOr kw "means_init" .none),
   ("precisions_init", argOr kw "precisions_init" .none),
   ("warm_start", argOr kw "warm_start" (.bool false)),
   ("verbose", argOr kw "verbose" (.int 0)),
   ("verbose_interval", argOr kw "verbose_interval" (.int 10))]

theorem gmmKwargs_params {cls : Cls} (hcl : cls = .gaussianMixture ∨ cls = .autoGaussianMixture)
    (h : construct lib w₀ cls 0 kw = (.ok o, w₁)) (n : HVal F) :
    gmmKwargs n (gmmOf o.params) = ("n_components", n) :: mixtureArgs kw := by
  unfold gmmKwargs gmmOf mixtureArgs
  rcases hcl with rfl | rfl <;> simp only <;>
  rw [attrOf_params h (k := "covariance_type") (by decide) (d := .str "full") (by lookup),
    attrOf_params h (k := "tol") (by decide) (d := .float (Num.ofRat (1/1000))) (by lookup),
    attrOf_params h (k := "reg_covar") (by decide)
      (d := .float (Num.ofRat (1/1000000))) (by lookup),
    attrOf_params h (k := "max_iter") (by decide) (d := .int 100) (by lookup),
    attrOf_params h (k := "n_init") (by decide) (d := .int 10) (by lookup),
    attrOf_params h (k := "init_params") (by decide) (d := .str "kmeans") (by lookup),
    attrOf_params h (k := "weights_init") (by decide) (d := .none) (by lookup),
    attrOf_params h (k := "means_init") (by decide) (d := .none) (by lookup),
    attrOf_params h (k := "precisions_init") (by decide) (d := .none) (by lookup),
    attrOf_params h (k := "warm_start") (by decide) (d := .bool false) (by lookup),
    attrOf_params h (k := "verbose") (by decide) (d := .int 0) (by lookup),
    attrOf_params h (k := "verbose_interval") (by decide) (d := .int 10) (by lookup)]

/-- C98: `GaussianMixture(...)`: energy, `eps` and `eps_r` of the stars go to scikit-learn's
GaussianMixture with these arguments; labels and probabilities are its predictions. -/
theorem C98_gaussian_mixture (h : construct lib w₀ .gaussianMixture 0 kw = (.ok o, w₁))
    (ho : w.objs[i]? = some o) {s : σ} (hs : w.stateOf o = some s) (hb : BinsAre kw a b)
    (c : Call F) :
    (step lib w (.decompose i c)).1 = .components (decompose c.env (a, b)
      ⟨["normalized_star_energy", "eps", "eps_r"], starsRowsMask, fun X _ => do
        let (m, _) ← lib.gmm.fitState
          (("n_components", argOr kw "n_components" (.int 2)) :: mixtureArgs kw) s X
        let labels ← lib.gmm.predict m X
        let proba ← lib.gmm.predictProba m X
        return (labels, some proba)⟩ c.galaxy) := by
  have hcls := (C72_attributes h).1
  rw [step_decompose lib ho, cbinsOf_params h hb, hcls, hs]
  congr 2
  unfold Cls.decomposer
  congr 1
  funext X _
  simp only [Cls.split, gmmSplit, gmmKwargs_params (.inl rfl) h]
  rw [attrOf_params h (k := "n_components") (by decide) (d := .int 2) (by lookup)]
  generalize lib.gmm.fitState _ s X = r
  rcases r with e | ⟨m, s'⟩
  · rfl
  show Except.map Prod.fst ((lib.gmm.predict m X >>= fun labels =>
    lib.gmm.predictProba m X >>= fun proba => .ok ((labels, some proba), s')) >>=
      fun r => .ok (r.1, some r.2)) = lib.gmm.predict m X >>= fun labels =>
    lib.gmm.predictProba m X >>= fun proba => .ok (labels, some proba)
  rcases lib.gmm.predict m X with e | labels
  · rfl
  show Except.map Prod.fst ((
    lib.gmm.predictProba m X >>= fun proba => .ok ((labels, some proba), s')) >>=
      fun r => .ok (r.1, some r.2)) =
    lib.gmm.predictProba m X >>= fun proba => .ok (labels, some proba)
  rcases lib.gmm.predictProba m X with e | labels <;> rfl

/-- C98: `AutoGaussianMixture(c_bic=0.1, ...)`: the same arguments reach every fit, those that choose
the number of gaussians and the last one. -/
theorem C98_auto (h : construct lib w₀ .autoGaussianMixture 0 kw = (.ok o, w₁))
    (ho : w.objs[i]? = some o) {s : σ} (hs : w.stateOf o = some s) (hb : BinsAre kw a b) {cBic : F}
    (hc : IsNumber (argOr kw "c_bic" (.float (Num.ofRat (1/10)))) cBic) (c : Call F) :
    ∃ p : GmmParams (HVal F), (∀ n, gmmKwargs n p = ("n_components", n) :: mixtureArgs kw) ∧
      (step lib w (.decompose i c)).1 = .components
        (decompose c.env (a, b) (autoGaussianMixture lib.gmm cBic p c.sched s) c.galaxy) := by
  have hcls := (C72_attributes h).1
  refine ⟨gmmOf o.params, gmmKwargs_params (.inr rfl) h, ?_⟩
  rw [step_decompose lib ho, cbinsOf_params h hb, hcls, hs]
  congr 2
  have e : numOf o.params "c_bic" = .ok cBic :=
    numOf_params (by
      rw [attrOf_params h (by decide) (d := .float (Num.ofRat (1/10))) (by lookup)]
      exact hc)
  unfold Cls.decomposer autoGaussianMixture
  congr 1
  funext X _
  simp only [Cls.split, e]
  show Except.map Prod.fst (autoSplit lib.gmm cBic (gmmOf o.params) c.sched s X >>=
    fun r => .ok (r.1, some r.2)) = _
  cases autoSplit lib.gmm cBic (gmmOf o.params) c.sched s X <;> rfl

end classes

section examples

/-- objects of all classes can be made with and without arguments, and an object with a generator has a
state -/
example : ∀ cls ∈ [Cls.jThreshold, .jHistogram, .jeHistogram, .kMeans, .gaussianMixture,
    .autoGaussianMixture], (construct sessLib ⟨[], [], 0⟩ cls 0 []).1.isOk = true ∧
    (construct sessLib ⟨[], [], 0⟩ cls 0
      [("cbins", .py (.tuple [.float (.fin 1), .float (.fin 2)]))]).1.isOk = true ∧
    ((construct sessLib ⟨[], [], 0⟩ cls 0 []).1.toOption.bind fun o =>
      (construct sessLib ⟨[], [], 0⟩ cls 0 []).2.stateOf o).isSome = (cls != .jThreshold) := by
  decide +kernel

/-- an integer is a number for `eps_cut` -/
example : IsNumber (argOr [("eps_cut", HVal.py (.int 1))] "eps_cut" (.float (Num.ofRat (6/10))))
    (.fin 1 : Ext ℚ) := .inr (.inl ⟨1, rfl, by decide +kernel⟩)

/-- the cut decides the labels -/
example :
    (session sessLib ⟨[], [], 0⟩ [.make .jThreshold 0 [],
      .make .jThreshold 0 [("eps_cut", .py (.int (-1)))],
      .decompose 0 exCall, .decompose 1 exCall]).map Out.labels? =
      [none, none, some [some 0, some 1, some 0, none, none, none],
        some [some 0, some 1, some 1, none, none, none]] := by
  decide +kernel

end examples

end GChop
