import Verif.Cluster
import Verif.Props.StarsOnly
import Verif.Lemmas.Order
import Verif.Lemmas.Ext

/-!
# C43-C46: the clustering decomposers
-/

set_option linter.unusedSectionVars false

namespace GChop
open Pd

variable {F : Type} [Num F] {V σ M : Type}

/-! ## C43: what goes in and what comes out -/

/-- C43: `n_clusters` is `n_components`, every other keyword is the hyperparameter of that name, and
there is no other keyword. -/
theorem C43_kmeans_keywords (p : KMeansParams V) :
    (kmeansKwargs p).get? "n_clusters" = some p.nComponents ∧
    (kmeansKwargs p).get? "init" = some p.init ∧
    (kmeansKwargs p).get? "n_init" = some p.nInit ∧
    (kmeansKwargs p).get? "max_iter" = some p.maxIter ∧
    (kmeansKwargs p).get? "tol" = some p.tol ∧
    (kmeansKwargs p).get? "verbose" = some p.verbose ∧
    (kmeansKwargs p).get? "algorithm" = some p.algorithm ∧
    (kmeansKwargs p).length = 7 := by
  simp [kmeansKwargs, Dict.get?]

/-- C43: every keyword of the mixture is the hyperparameter of that name, and there is no other
keyword. -/
theorem C43_gmm_keywords (n : V) (p : GmmParams V) :
    (gmmKwargs n p).get? "n_components" = some n ∧
    (gmmKwargs n p).get? "covariance_type" = some p.covarianceType ∧
    (gmmKwargs n p).get? "tol" = some p.tol ∧
    (gmmKwargs n p).get? "reg_covar" = some p.regCovar ∧
    (gmmKwargs n p).get? "max_iter" = some p.maxIter ∧
    (gmmKwargs n p).get? "n_init" = some p.nInit ∧
    (gmmKwargs n p).get? "init_params" = some p.initParams ∧
    (gmmKwargs n p).get? "weights_init" = some p.weightsInit ∧
    (gmmKwargs n p).get? "means_init" = some p.meansInit ∧
    (gmmKwargs n p).get? "precisions_init" = some p.precisionsInit ∧
    (gmmKwargs n p).get? "warm_start" = some p.warmStart ∧
    (gmmKwargs n p).get? "verbose" = some p.verbose ∧
    (gmmKwargs n p).get? "verbose_interval" = some p.verboseInterval ∧
    (gmmKwargs n p).length = 13 := by
  simp [gmmKwargs, Dict.get?]

/-- the stars whose normalized energy, `eps` and `eps_r` are finite, by position -/
def clusterStars (j : JCirc F) (n : Nat) : List Nat :=
  (List.range n).filter fun i => Num.isFinite (j.normalizedStarEnergy.getD i Num.nan) &&
    Num.isFinite (j.eps.getD i Num.nan) && Num.isFinite (j.epsR.getD i Num.nan)

/-- their (normalized energy, eps, eps_r) -/
def clusterMatrix (j : JCirc F) (n : Nat) : List (List F) :=
  (clusterStars j n).map fun i =>
    [j.normalizedStarEnergy.getD i Num.nan, j.eps.getD i Num.nan, j.epsR.getD i Num.nan]

theorem finiteStars_cluster (j : JCirc F) (n : Nat) :
    finiteStars j clusterAttributes n = clusterStars j n := by
  unfold finiteStars clusterStars
  apply List.filter_congr
  intro i _
  simp [clusterAttributes, JCirc.attr, Bool.and_assoc]

theorem starMatrix_cluster (j : JCirc F) (n : Nat) :
    starMatrix j clusterAttributes n = clusterMatrix j n := by
  unfold starMatrix clusterMatrix
  rw [finiteStars_cluster]
  apply List.map_congr_left
  intro i _
  simp [clusterAttributes, JCirc.attr]

theorem clusterAttributes_circ : ∀ a ∈ clusterAttributes, a ∈ circularityAttributes := by
  intro a ha
  simp only [clusterAttributes, List.mem_cons, List.not_mem_nil, or_false] at ha
  rcases ha with rfl | rfl | rfl <;> decide

/-- the components in which exactly the stars `ids` are labelled, with these labels in order and
these probabilities -/
def Placed (c : Components F) (n : Nat) (ids : List Nat) (labels : List Int)
    (probs : Option (Mat F)) : Prop :=
  c.labels.length = n ∧ c.ptypes.length = n ∧
  ids.map (fun i => c.labels[i]?) = labels.map (fun l => some (some l)) ∧
  (∀ i < n, i ∉ ids → c.labels[i]? = some none) ∧
  (probs = none → c.probabilities = none) ∧
  ∀ p, probs = some p → ∃ p', c.probabilities = some p' ∧ p'.width = p.width ∧
    p'.rows.length = n ∧ ids.map (fun i => p'.rows[i]?) = p.rows.map some ∧
    ∀ i < n, i ∉ ids → p'.rows[i]? = some (List.replicate p.width Num.nan)

/-- no label of placed components is new -/
theorem Placed.label_mem {c : Components F} {n : Nat} {ids : List Nat} {labels : List Int}
    {probs : Option (Mat F)} (h : Placed c n ids labels probs) {i : Nat} {l : Int}
    (hl : c.labels[i]? = some (some l)) : i ∈ ids ∧ l ∈ labels := by
  obtain ⟨h1, _, h3, h4, _⟩ := h
  have hi : i < n := by rw [← h1]; exact (List.getElem?_eq_some_iff.1 hl).1
  have hmem : i ∈ ids := by
    by_contra hni
    rw [h4 i hi hni] at hl
    cases hl
  refine ⟨hmem, ?_⟩
  have : some (some l) ∈ ids.map (fun i => c.labels[i]?) := List.mem_map.2 ⟨i, hmem, hl⟩
  rw [h3, List.mem_map] at this
  obtain ⟨l', hl', he⟩ := this
  injection he with he
  injection he with he
  rw [← he]; exact hl'

theorem cluster_decompose [NumOrd F] (env : CircEnv F) (cbins : F × F) (b : BGalaxy F)
    (j : JCirc F) (hj : jcirc env (Galaxy.ofBodies b) cbins.1 cbins.2 = .ok j)
    (f : List (List F) → Py (List Int × Option (Mat F))) :
    (∀ labels probs, f (clusterMatrix j b.stars.length) = .ok (labels, probs) →
      labels.length = (clusterStars j b.stars.length).length →
      (∀ p, probs = some p → p.rows.length = (clusterStars j b.stars.length).length) →
      ∃ c, decompose env cbins ⟨clusterAttributes, starsRowsMask, fun X _ => f X⟩
          (Galaxy.ofBodies b) = .ok c ∧
        Placed c (b.stars.length + b.dm.length + b.gas.length) (clusterStars j b.stars.length)
          labels probs) ∧
    ∀ e, f (clusterMatrix j b.stars.length) = .error e →
      decompose env cbins ⟨clusterAttributes, starsRowsMask, fun X _ => f X⟩ (Galaxy.ofBodies b)
        = .error e := by
  have hn : (b.rows none).length = b.stars.length + b.dm.length + b.gas.length := by
    rw [rows_none_count]; omega
  constructor
  · intro labels probs h1 h2 h3
    obtain ⟨c, a1, a2, a3, a4, a5, a6, a7⟩ := decompose_stars env cbins b clusterAttributes
      (by decide) clusterAttributes_circ (by decide) j hj (fun X _ => f X) labels probs
      (by rw [starMatrix_cluster]; exact h1) (by rw [finiteStars_cluster]; exact h2)
      (by rw [finiteStars_cluster]; exact h3)
    rw [finiteStars_cluster] at a4 a5 a7
    rw [hn] at a3 a5 a7
    exact ⟨c, a1, a3, by rw [a2]; simp [hn], a4, a5, a6, a7⟩
  · intro e he
    exact decompose_stars_error env cbins b clusterAttributes (by decide) clusterAttributes_circ
      (by decide) j hj (fun X _ => f X) e (by rw [starMatrix_cluster]; exact he)

/-- C43: the labels of a galaxy decomposed by `KMeans` are the labels returned by scikit-learn for
the matrix of (normalized energy, eps, eps_r) of the stars for which the three are finite, on those
stars, in order; the rest of the galaxy has no label and there are no probabilities.  A failure of
scikit-learn is the failure of the decomposition. -/
theorem C43_kmeans [NumOrd F] (env : CircEnv F) (cbins : F × F) (b : BGalaxy F) (j : JCirc F)
    (hj : jcirc env (Galaxy.ofBodies b) cbins.1 cbins.2 = .ok j)
    (fitPredict : KMeansFit V σ F) (p : KMeansParams V) (s : σ) :
    (∀ labels s', fitPredict (kmeansKwargs p) s (clusterMatrix j b.stars.length)
        = .ok (labels, s') → labels.length = (clusterStars j b.stars.length).length →
      ∃ c, decompose env cbins (kmeans fitPredict p s) (Galaxy.ofBodies b) = .ok c ∧
        Placed c (b.stars.length + b.dm.length + b.gas.length) (clusterStars j b.stars.length)
          labels none) ∧
    ∀ e, fitPredict (kmeansKwargs p) s (clusterMatrix j b.stars.length) = .error e →
      decompose env cbins (kmeans fitPredict p s) (Galaxy.ofBodies b) = .error e := by
  obtain ⟨h1, h2⟩ := cluster_decompose env cbins b j hj
    (fun X => (kmeansSplit fitPredict p s X).map Prod.fst)
  constructor
  · intro labels s' hf hl
    refine h1 labels none ?_ hl (by simp)
    simp only [kmeansSplit]
    rw [hf]
    rfl
  · intro e he
    apply h2
    simp only [kmeansSplit]
    rw [he]
    rfl

/-- C43: the labels and probabilities of a galaxy decomposed by `GaussianMixture` are what
`predict` and `predict_proba` of the mixture fitted to that matrix return for it. -/
theorem C43_gmm [NumOrd F] (env : CircEnv F) (cbins : F × F) (b : BGalaxy F) (j : JCirc F)
    (hj : jcirc env (Galaxy.ofBodies b) cbins.1 cbins.2 = .ok j)
    (sk : GmmLib V σ M F) (n : V) (p : GmmParams V) (s : σ) :
    (∀ gmm s' labels proba,
      sk.fitState (gmmKwargs n p) s (clusterMatrix j b.stars.length) = .ok (gmm, s') →
      sk.predict gmm (clusterMatrix j b.stars.length) = .ok labels →
      sk.predictProba gmm (clusterMatrix j b.stars.length) = .ok proba →
      labels.length = (clusterStars j b.stars.length).length →
      proba.rows.length = (clusterStars j b.stars.length).length →
      ∃ c, decompose env cbins (gaussianMixture sk n p s) (Galaxy.ofBodies b) = .ok c ∧
        Placed c (b.stars.length + b.dm.length + b.gas.length) (clusterStars j b.stars.length)
          labels (some proba)) ∧
    ∀ e, sk.fitState (gmmKwargs n p) s (clusterMatrix j b.stars.length) = .error e →
      decompose env cbins (gaussianMixture sk n p s) (Galaxy.ofBodies b) = .error e := by
  obtain ⟨h1, h2⟩ := cluster_decompose env cbins b j hj
    (fun X => (gmmSplit sk n p s X).map Prod.fst)
  constructor
  · intro gmm s' labels proba hf hp hq hl hr
    refine h1 labels (some proba) ?_ hl (by rintro _ ⟨⟩; exact hr)
    simp only [gmmSplit]
    rw [hf]
    simp only [Py.ok_bind]
    rw [hp]
    simp only [Py.ok_bind]
    rw [hq]
    rfl
  · intro e he
    apply h2
    simp only [gmmSplit]
    rw [he]
    rfl

/-- C43: if scikit-learn's labels are below the number of components, so are those of the
decomposition. -/
theorem C43_label_range (c : Components F) (n : Nat) (ids : List Nat) (labels : List Int)
    (probs : Option (Mat F)) (h : Placed c n ids labels probs) (k : Int)
    (hk : ∀ l ∈ labels, 0 ≤ l ∧ l < k) (i : Nat) (l : Int) (hl : c.labels[i]? = some (some l)) :
    0 ≤ l ∧ l < k := hk l (h.label_mem hl).2

/-! ## C46: the order in which the workers finish -/

theorem runTasks_ok {β : Type} (vs : List β) (sched : List Nat) (slots : List (Option β))
    (hlen : slots.length = vs.length) :
    ∃ out, runTasks (vs.map .ok) sched slots = .ok out ∧ out.length = vs.length ∧
      ∀ i < vs.length, out[i]? = if i ∈ sched then some vs[i]? else slots[i]? := by
  induction sched generalizing slots with
  | nil => exact ⟨slots, rfl, hlen, by simp⟩
  | cons k sched ih =>
    simp only [runTasks, List.getElem?_map]
    by_cases hk : k < vs.length
    · rw [List.getElem?_eq_getElem hk]
      simp only [Option.map_some]
      obtain ⟨out, h1, h2, h3⟩ := ih (slots.set k (some vs[k])) (by simpa using hlen)
      refine ⟨out, h1, h2, ?_⟩
      intro i hi
      rw [h3 i hi]
      by_cases hs : i ∈ sched
      · simp [hs]
      · by_cases hik : i = k
        · subst hik
          simp [hs, hlen, hi]
        · rw [if_neg hs, if_neg (by simp [hik, hs]), List.getElem?_set_ne (Ne.symm hik)]
    · rw [List.getElem?_eq_none (by omega)]
      simp only [Option.map_none]
      obtain ⟨out, h1, h2, h3⟩ := ih slots hlen
      refine ⟨out, h1, h2, ?_⟩
      intro i hi
      rw [h3 i hi]
      have : i ≠ k := by omega
      simp [this]

theorem runTasks_error {β : Type} (tasks : List (Py β)) (sched : List Nat)
    (slots : List (Option β)) (h : ∃ i ∈ sched, ∃ e, tasks[i]? = some (.error e)) :
    ∃ e, runTasks tasks sched slots = .error e ∧ .error e ∈ tasks := by
  induction sched generalizing slots with
  | nil => obtain ⟨i, hi, _⟩ := h; cases hi
  | cons k sched ih =>
    simp only [runTasks]
    cases hk : tasks[k]? with
    | none =>
      simp only
      apply ih
      obtain ⟨i, hi, e, he⟩ := h
      rcases List.mem_cons.1 hi with rfl | hi
      · rw [hk] at he; cases he
      · exact ⟨i, hi, e, he⟩
    | some r =>
      cases r with
      | error e => exact ⟨e, rfl, List.mem_of_getElem? hk⟩
      | ok v =>
        simp only
        apply ih
        obtain ⟨i, hi, e, he⟩ := h
        rcases List.mem_cons.1 hi with rfl | hi
        · rw [hk] at he; cases he
        · exact ⟨i, hi, e, he⟩

/-- C46: whatever the order in which any number of tasks finish, the results come back in the order
of the tasks; if some task fails, the call fails with the error of a failing task. -/
theorem C46_parallel {β : Type} (tasks : List (Py β)) (sched : List Nat)
    (hs : sched.Perm (List.range tasks.length)) :
    (∀ vs : List β, tasks = vs.map .ok → parallel tasks sched = .ok vs) ∧
    ((∃ e, .error e ∈ tasks) →
      ∃ e, parallel tasks sched = .error e ∧ .error e ∈ tasks) := by
  constructor
  · rintro vs rfl
    obtain ⟨out, h1, h2, h3⟩ := runTasks_ok vs sched ((vs.map .ok).map fun _ : Py β => none)
      (by simp)
    unfold parallel
    rw [h1]
    simp only [Py.ok_bind, Py.pure_eq]
    congr 1
    have : out = vs.map some := by
      apply List.ext_getElem?
      intro i
      by_cases hi : i < vs.length
      · rw [h3 i hi, if_pos (hs.mem_iff.2 (by simpa using hi)), List.getElem?_map,
          List.getElem?_eq_getElem hi]
        rfl
      · rw [List.getElem?_eq_none (by omega), List.getElem?_eq_none (by simpa using hi)]
    rw [this, List.filterMap_map]
    simp
  · rintro ⟨e, he⟩
    obtain ⟨i, hi⟩ := List.mem_iff_getElem?.1 he
    have hlt : i < tasks.length := (List.getElem?_eq_some_iff.1 hi).1
    obtain ⟨e', h1, h2⟩ := runTasks_error tasks sched (tasks.map fun _ => none)
      ⟨i, hs.mem_iff.2 (by simpa using hlt), e, hi⟩
    refine ⟨e', ?_, h2⟩
    unfold parallel
    rw [h1]
    rfl

theorem all_ok_or_error {β : Type} (tasks : List (Py β)) :
    (∃ vs : List β, tasks = vs.map .ok) ∨ ∃ e, .error e ∈ tasks := by
  induction tasks with
  | nil => exact Or.inl ⟨[], rfl⟩
  | cons t tasks ih =>
    cases t with
    | error e => exact Or.inr ⟨e, by simp⟩
    | ok v =>
      rcases ih with ⟨vs, rfl⟩ | ⟨e, he⟩
      · exact Or.inl ⟨v :: vs, rfl⟩
      · exact Or.inr ⟨e, by simp [he]⟩

/-- C46: any two completion orders give the same result of `AutoGaussianMixture.split`, or both
fail; if all failing fits fail in the same way, the two outcomes are equal. -/
theorem C46_split (sk : GmmLib V σ M F) (hsk : ∀ s n, (sk.randint s n).1.length = n) (cBic : F)
    (p : GmmParams V) (s1 s2 : List Nat)
    (h1 : s1.Perm (List.range 14)) (h2 : s2.Perm (List.range 14)) (s : σ) (X : List (List F)) :
    (∀ r, autoSplit sk cBic p s1 s X = .ok r ↔ autoSplit sk cBic p s2 s X = .ok r) ∧
    ((∀ n seed n' seed' e e', tryComponents sk p X n seed = .error e →
        tryComponents sk p X n' seed' = .error e' → e = e') →
      autoSplit sk cBic p s1 s X = autoSplit sk cBic p s2 s X) := by
  have hlen : (List.zipWith (tryComponents sk p X) componentsToTry
      (sk.randint s componentsToTry.length).1).length = 14 := by
    rw [List.length_zipWith, hsk]; rfl
  set tasks := List.zipWith (tryComponents sk p X) componentsToTry
    (sk.randint s componentsToTry.length).1 with ht
  have hmem : ∀ e, .error e ∈ tasks → ∃ n seed, tryComponents sk p X n seed = .error e := by
    intro e he
    obtain ⟨i, hi⟩ := List.mem_iff_getElem?.1 he
    rw [ht, List.getElem?_zipWith] at hi
    split at hi
    · injection hi with hi; exact ⟨_, _, hi⟩
    · cases hi
  have e1 := C46_parallel tasks s1 (by rw [hlen]; exact h1)
  have e2 := C46_parallel tasks s2 (by rw [hlen]; exact h2)
  rcases all_ok_or_error tasks with ⟨vs, hvs⟩ | herr
  · have : autoSplit sk cBic p s1 s X = autoSplit sk cBic p s2 s X := by
      unfold autoSplit
      simp only
      rw [← ht, e1.1 vs hvs, e2.1 vs hvs]
    exact ⟨fun r => by rw [this], fun _ => this⟩
  · obtain ⟨a, ha, ha'⟩ := e1.2 herr
    obtain ⟨c, hc, hc'⟩ := e2.2 herr
    have ra : autoSplit sk cBic p s1 s X = .error a := by
      unfold autoSplit
      simp only
      rw [← ht, ha]
      rfl
    have rc : autoSplit sk cBic p s2 s X = .error c := by
      unfold autoSplit
      simp only
      rw [← ht, hc]
      rfl
    constructor
    · intro r; rw [ra, rc]; constructor <;> intro h <;> cases h
    · intro hsame
      obtain ⟨n, seed, hn⟩ := hmem a ha'
      obtain ⟨n', seed', hn'⟩ := hmem c hc'
      rw [ra, rc, hsame n seed n' seed' a c hn hn']

/-! ## C44: the number of gaussians -/

/-- the mean of the last five values, as computed -/
def lastFiveMean (bics : List F) : F := Num.sum (bics.drop (bics.length - 5)) /. Num.ofRat 5

/-- C44: the number chosen is the least candidate whose value exceeds the mean of the last five by
at most `c_bic`; `ValueError` exactly when there is none.  Any arithmetic. -/
theorem C44_choice (cBic : F) (ctt : List Nat) (bics : List F) :
    let ok : Nat → Prop := fun n => ∃ (i : Nat) (b : F), ctt[i]? = some n ∧ bics[i]? = some b ∧
      ((b -. lastFiveMean bics) <=. cBic) = true
    (∀ n, selectComponents cBic ctt bics = .ok n ↔ ok n ∧ ∀ m, ok m → n ≤ m) ∧
    (∀ e, selectComponents cBic ctt bics = .error e ↔ e = .valueError ∧ ¬ ∃ n, ok n) := by
  intro ok
  have hmem : ∀ n, n ∈ Np.take ctt (Np.whereIdx ((bics.map (· -. lastFiveMean bics)).map
      (· <=. cBic))) ↔ ok n := by
    intro n
    unfold Np.take
    rw [List.mem_filterMap]
    constructor
    · rintro ⟨i, hi, hn⟩
      rw [Np.mem_whereIdx, List.getElem?_map, List.getElem?_map] at hi
      cases hb : bics[i]? with
      | none => rw [hb] at hi; cases hi
      | some b =>
        rw [hb] at hi
        simp only [Option.map_some] at hi
        injection hi with hi
        exact ⟨i, b, hn, hb, hi⟩
    · rintro ⟨i, b, hn, hb, hle⟩
      refine ⟨i, ?_, hn⟩
      rw [Np.mem_whereIdx, List.getElem?_map, List.getElem?_map, hb]
      simp [hle]
  have hsel : selectComponents cBic ctt bics = npMinNat (Np.take ctt
      (Np.whereIdx ((bics.map (· -. lastFiveMean bics)).map (· <=. cBic)))) := rfl
  rw [hsel]
  generalize Np.take ctt (Np.whereIdx ((bics.map (· -. lastFiveMean bics)).map (· <=. cBic))) = l
    at hmem
  unfold npMinNat
  constructor
  · intro n
    cases hm : l.min? with
    | none =>
      rw [List.min?_eq_none_iff] at hm
      subst hm
      constructor
      · intro h; cases h
      · rintro ⟨h, _⟩; rw [← hmem] at h; cases h
    | some k =>
      rw [List.min?_eq_some_iff] at hm
      constructor
      · intro h
        injection h with h
        subst h
        exact ⟨(hmem _).1 hm.1, fun m h => hm.2 m ((hmem m).2 h)⟩
      · rintro ⟨h1, h2⟩
        have := h2 k ((hmem k).1 hm.1)
        have := hm.2 n ((hmem n).2 h1)
        have : k = n := by omega
        simp [this]
  · intro e
    cases hm : l.min? with
    | none =>
      rw [List.min?_eq_none_iff] at hm
      subst hm
      constructor
      · intro h
        injection h with h
        refine ⟨h.symm, ?_⟩
        rintro ⟨n, hn⟩
        rw [← hmem] at hn
        cases hn
      · rintro ⟨rfl, _⟩; rfl
    | some k =>
      rw [List.min?_eq_some_iff] at hm
      constructor
      · intro h; cases h
      · rintro ⟨_, h⟩
        exact absurd ⟨k, (hmem k).1 hm.1⟩ h

/-! ## C45: probabilities of the four structures -/

/-- the structure of a gaussian with mean normalized energy `e` and mean circularity `c`: 2 (cold
disk) from 0.85 up, 3 (warm disk) from 0.5 to 0.85, and below 0.5 it is 0 (halo) from energy -0.75
up and 1 (bulge) below; no structure if a mean it needs is NaN -/
def structureOf (e c : F) : Option Nat :=
  if Num.ofRat (85 / 100) <=. c then some 2
  else if Num.ofRat (1 / 2) <=. c then some 3
  else if c <. Num.ofRat (1 / 2) then
    if Num.ofRat (-3 / 4) <=. e then some 0
    else if e <. Num.ofRat (-3 / 4) then some 1 else none
  else none

/-- C45: a gaussian with means that are not NaN belongs to exactly one structure. -/
theorem C45_structure [NumOrd F] (e c : F) (he : Num.isNaN e = false) (hc : Num.isNaN c = false) :
    ∃ k < 4, structureOf e c = some k := by
  have h1 : Num.isNaN (Num.ofRat (1 / 2) : F) = false :=
    NumOrd.finite_not_nan (NumOrd.ofRat_finite (by norm_num) (by norm_num))
  have h2 : Num.isNaN (Num.ofRat (-3 / 4) : F) = false :=
    NumOrd.finite_not_nan (NumOrd.ofRat_finite (by norm_num) (by norm_num))
  unfold structureOf
  split
  · exact ⟨2, by omega, rfl⟩
  · split
    · exact ⟨3, by omega, rfl⟩
    · rename_i h
      rw [if_pos (lt_of_not_le h1 hc (by simpa using h))]
      split
      · exact ⟨0, by omega, rfl⟩
      · rename_i h'
        rw [if_pos (lt_of_not_le h2 he (by simpa using h'))]
        exact ⟨1, by omega, rfl⟩

/-- the four conditions of the loop say which structure it is -/
theorem conditions [NumOrd F] (e c : F) :
    ((Num.ofRat (85 / 100) <=. c) = decide (structureOf e c = some 2)) ∧
    (((c <. Num.ofRat (85 / 100)) && (Num.ofRat (1 / 2) <=. c))
      = decide (structureOf e c = some 3)) ∧
    (((c <. Num.ofRat (1 / 2)) && (Num.ofRat (-3 / 4) <=. e))
      = decide (structureOf e c = some 0)) ∧
    (((c <. Num.ofRat (1 / 2)) && (e <. Num.ofRat (-3 / 4)))
      = decide (structureOf e c = some 1)) := by
  have h85 : Num.isNaN (Num.ofRat (85 / 100) : F) = false :=
    NumOrd.finite_not_nan (NumOrd.ofRat_finite (by norm_num) (by norm_num))
  have hle : ((Num.ofRat (1 / 2) : F) <=. Num.ofRat (85 / 100)) = true :=
    NumOrd.ofRat_le (by norm_num) (by norm_num) (by norm_num)
  unfold structureOf
  cases a : ((Num.ofRat (85 / 100) : F) <=. c) with
  | true =>
    have b1 : ((Num.ofRat (1 / 2) : F) <=. c) = true := NumOrd.le_trans hle a
    rw [not_lt_of_le a, not_lt_of_le b1]
    simp
  | false =>
    cases b1 : ((Num.ofRat (1 / 2) : F) <=. c) with
    | true =>
      rw [not_lt_of_le b1, lt_of_not_le h85 (NumOrd.not_nan_of_le b1).2 a]
      simp
    | false =>
      cases b2 : (c <. (Num.ofRat (1 / 2) : F)) with
      | false => simp
      | true =>
        cases b3 : ((Num.ofRat (-3 / 4) : F) <=. e) with
        | true => rw [not_lt_of_le b3]; simp
        | false => cases (e <. (Num.ofRat (-3 / 4) : F)) <;> simp

/-- the membership probabilities of one star, added up over the gaussians of a structure -/
def structureSum (center : Mat F) (nComponents k : Nat) (row : List F) : F :=
  ((List.range nComponents).filter fun i =>
      structureOf ((center.rows.getD i []).getD 0 Num.nan) ((center.rows.getD i []).getD 1 Num.nan)
        = some k).foldl
    (fun acc i => acc +. row.getD i Num.nan) Num.zero

theorem addIf_map [NumOrd F] (cond : Bool) (proba : Mat F) (i : Nat) (hi : i < proba.width)
    (f : List F → F) :
    addIf cond (proba.rows.map f) proba i
      = .ok (proba.rows.map fun r => if cond then f r +. r.getD i Num.nan else f r) := by
  unfold addIf
  cases cond with
  | false => simp
  | true =>
    simp only [if_true, Mat.column]
    rw [if_pos hi]
    simp only [Py.ok_bind]
    unfold Np.bcast
    rw [if_pos (by simp)]
    congr 1
    rw [List.zipWith_map]
    simp

theorem assignLoop_spec [NumOrd F] (center proba : Mat F) (is : List Nat)
    (his : ∀ i ∈ is, i < center.rows.length ∧ i < proba.width) (hw : 2 ≤ center.width)
    (h b c w : List F → F) :
    let cls : Nat → Option Nat := fun i => structureOf ((center.rows.getD i []).getD 0 Num.nan)
      ((center.rows.getD i []).getD 1 Num.nan)
    let add : Nat → (List F → F) → List F → F := fun k f r =>
      (is.filter fun i => cls i = some k).foldl (fun acc i => acc +. r.getD i Num.nan) (f r)
    assignLoop center proba is ⟨proba.rows.map h, proba.rows.map b, proba.rows.map c,
        proba.rows.map w⟩
      = .ok ⟨proba.rows.map (add 0 h), proba.rows.map (add 1 b), proba.rows.map (add 2 c),
          proba.rows.map (add 3 w)⟩ := by
  intro cls add
  induction is generalizing h b c w with
  | nil => simp [assignLoop, add]
  | cons i is ih =>
    obtain ⟨h1, h2⟩ := his i (by simp)
    have hrow : center.rows[i]? = some (center.rows.getD i []) := by
      rw [List.getD_eq_getElem?_getD, List.getElem?_eq_getElem h1]
      rfl
    have item : ∀ k, k < 2 → center.item i k = .ok ((center.rows.getD i []).getD k Num.nan) := by
      intro k hk
      unfold Mat.item
      rw [hrow]
      simp only
      rw [if_pos (by omega)]
    simp only [assignLoop, assignComponent]
    rw [item 0 (by omega), item 1 (by omega)]
    simp only [Py.ok_bind]
    obtain ⟨c2, c3, c0, c1⟩ := conditions ((center.rows.getD i []).getD 0 Num.nan)
      ((center.rows.getD i []).getD 1 (Num.nan : F))
    rw [c2, c3, c0, c1]
    rw [addIf_map _ proba i h2, addIf_map _ proba i h2, addIf_map _ proba i h2,
      addIf_map _ proba i h2]
    simp only [Py.ok_bind, Py.pure_eq]
    rw [ih (fun k hk => his k (by simp [hk]))]
    have step : ∀ (k : Nat) (f : List F → F) (r : List F),
        ((is.filter fun i => cls i = some k).foldl (fun acc i => acc +. r.getD i Num.nan)
          (if decide (cls i = some k) = true then f r +. r.getD i Num.nan else f r))
        = add k f r := by
      intro k f r
      simp only [add, List.filter_cons]
      by_cases hk : cls i = some k
      · simp [hk]
      · simp [hk]
    rw [← funext (step 0 h), ← funext (step 1 b), ← funext (step 2 c), ← funext (step 3 w)]

/-- C45: with one row of means per gaussian and one row of membership probabilities per star,
the classification succeeds; the four probabilities of a star are its membership probabilities added
up over the gaussians of each structure, and its label is the position of the largest.  Any
arithmetic. -/
theorem C45_classify [NumOrd F] (nComponents : Nat) (center proba : Mat F)
    (hc : center.rows.length = nComponents) (hcw : 2 ≤ center.width)
    (hp : proba.width = nComponents) :
    ∃ labels, classify proba.rows.length nComponents center proba
      = .ok (labels, some ⟨proba.rows.map fun row =>
          (List.range 4).map fun k => structureSum center nComponents k row, 4⟩) ∧
      labels.length = proba.rows.length ∧
      ∀ (i : Nat) (l : Int), labels[i]? = some l → ∃ (row : List F) (k : Nat),
        proba.rows[i]? = some row ∧ l = k ∧ k < 4 ∧
        Np.argmax ((List.range 4).map fun k => structureSum center nComponents k row) = .ok k := by
  have hz : (List.replicate proba.rows.length Num.zero : List F)
      = proba.rows.map fun _ => Num.zero := by rw [List.map_const']
  unfold classify
  simp only
  rw [hz, assignLoop_spec center proba (List.range nComponents) (by
    intro i hi
    rw [List.mem_range] at hi
    omega) hcw]
  simp only [Py.ok_bind]
  have hst : stackFour (F := F) ⟨proba.rows.map (structureSum center nComponents 0),
      proba.rows.map (structureSum center nComponents 1),
      proba.rows.map (structureSum center nComponents 2),
      proba.rows.map (structureSum center nComponents 3)⟩
      = .ok ⟨proba.rows.map fun row =>
          (List.range 4).map fun k => structureSum center nComponents k row, 4⟩ := by
    unfold stackFour
    rw [if_pos (by simp)]
    congr 2
    apply List.ext_getElem?
    intro i
    rw [List.getElem?_map, List.getElem?_map]
    simp only [List.length_map]
    by_cases hi : i < proba.rows.length
    · rw [List.getElem?_range hi, List.getElem?_eq_getElem hi]
      simp [hi, List.range_succ]
    · rw [List.getElem?_eq_none (by simpa using hi), List.getElem?_eq_none (by simpa using hi)]
      rfl
  have hst' := hst
  unfold structureSum at hst
  rw [hst]
  simp only [Py.ok_bind]
  -- the labels
  have hlab : ∀ rows : List (List F), ∃ ls : List Nat,
      (rows.map fun row => (List.range 4).map fun k => structureSum center nComponents k row).mapM
        Np.argmax = .ok ls ∧ ls.length = rows.length ∧
      ∀ (i : Nat) (l : Nat), ls[i]? = some l → ∃ row, rows[i]? = some row ∧ l < 4 ∧
        Np.argmax ((List.range 4).map fun k => structureSum center nComponents k row) = .ok l := by
    intro rows
    induction rows with
    | nil => exact ⟨[], rfl, rfl, by simp⟩
    | cons row rows ih =>
      obtain ⟨ls, h1, h2, h3⟩ := ih
      obtain ⟨k, hk⟩ : ∃ k, Np.argmax ((List.range 4).map fun k =>
          structureSum center nComponents k row) = .ok k := by
        simp only [List.range_succ, List.range_zero, List.nil_append, List.cons_append, List.map_cons]
        exact ⟨_, rfl⟩
      refine ⟨k :: ls, ?_, by simp [h2], ?_⟩
      · rw [List.map_cons, List.mapM_cons, hk]
        simp only [Py.ok_bind]
        rw [h1]
        rfl
      · intro i l hl
        cases i with
        | zero =>
          simp only [List.getElem?_cons_zero, Option.some.injEq] at hl
          subst hl
          exact ⟨row, rfl, by simpa using argmax_lt hk, hk⟩
        | succ i => simpa using h3 i l (by simpa using hl)
  obtain ⟨ls, h1, h2, h3⟩ := hlab proba.rows
  unfold structureSum at h1
  rw [h1]
  refine ⟨ls.map fun (i : Nat) => (i : Int), rfl, by simp [h2], ?_⟩
  intro i l hl
  rw [List.getElem?_map, Option.map_eq_some_iff] at hl
  obtain ⟨k, hk, rfl⟩ := hl
  obtain ⟨row, a1, a2, a3⟩ := h3 i k hk
  exact ⟨row, k, a1, rfl, a2, a3⟩

end GChop
