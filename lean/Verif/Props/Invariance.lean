import Verif.Cluster
import Verif.Threshold
import Verif.Histogram
import Verif.Props.CircExact

/-!
# C64: decompositions do not depend on units or on the orientation in the disk plane
-/

set_option linter.unusedSectionVars false

namespace GChop
open Ext

section
variable {F : Type} [Num F]

/-- with circularity attributes only, `decompose` sees a galaxy through `jcirc` and the numbers of
dark matter and gas particles -/
theorem decompose_congr (env : CircEnv F) (cbins : F × F) (dec : Decomposer F) (g₁ g₂ : Galaxy F)
    (ha : ∀ a ∈ dec.attributes, a ∈ circularityAttributes)
    (hj : jcirc env g₁ cbins.1 cbins.2 = jcirc env g₂ cbins.1 cbins.2)
    (hd : g₁.darkMatter.len = g₂.darkMatter.len) (hg : g₁.gas.len = g₂.gas.len) :
    decompose env cbins dec g₁ = decompose env cbins dec g₂ := by
  have hp : ∀ g : Galaxy F, particleFrame g dec.attributes = .ok [] := by
    intro g
    unfold particleFrame
    rw [if_neg]
    simp only [List.any_eq_true, not_exists, not_and]
    intro a h
    simp [ha a h]
  have hc : circFrame env cbins g₁ dec.attributes = circFrame env cbins g₂ dec.attributes := by
    unfold circFrame getJcircDf
    rw [hj, hd, hg]
  unfold decompose attributesMatrix
  rw [hp, hp, hc]

end

variable {K : Type} [Field K] [LinearOrder K] [IsStrictOrderedRing K] [FloorRing K] [HasSqrt K]

theorem len_map_dm (g : KGalaxy K) (f : KBody K → KBody K) :
    (Galaxy.ofBodies (g.map f).toB).darkMatter.len = (Galaxy.ofBodies g.toB).darkMatter.len := by
  simp [Galaxy.ofBodies, ParticleSet.len, KGalaxy.map, KGalaxy.toB, ParticleSet.ofBodies,
    BGalaxy.dmSet, BGalaxy.gSet]

theorem len_map_gas (g : KGalaxy K) (f : KBody K → KBody K) :
    (Galaxy.ofBodies (g.map f).toB).gas.len = (Galaxy.ofBodies g.toB).gas.len := by
  simp [Galaxy.ofBodies, ParticleSet.len, KGalaxy.map, KGalaxy.toB, ParticleSet.ofBodies,
    BGalaxy.dmSet, BGalaxy.gSet]

/-- C64: a change of units (lengths by `a`, velocities by `b`, potentials by `b²`) changes neither
the outcome of a decomposition by circularity attributes nor any label or probability. -/
theorem C64_units [LawfulSqrt K] (env : CircEnv (Ext K)) (cbins : Ext K × Ext K)
    (dec : Decomposer (Ext K)) (ha : ∀ a ∈ dec.attributes, a ∈ circularityAttributes)
    (g : KGalaxy K) {a b : K} (h1 : 0 < a) (h2 : 0 < b) :
    decompose env cbins dec (Galaxy.ofBodies (g.map (KBody.rescale a b)).toB) =
      decompose env cbins dec (Galaxy.ofBodies g.toB) :=
  decompose_congr env cbins dec _ _ ha (C28_units env g h1 h2 cbins.1 cbins.2)
    (len_map_dm g _) (len_map_gas g _)

/-- C64: rotating the galaxy about the z axis does not change the decomposition. -/
theorem C64_rotation (env : CircEnv (Ext K)) (cbins : Ext K × Ext K)
    (dec : Decomposer (Ext K)) (ha : ∀ a ∈ dec.attributes, a ∈ circularityAttributes)
    (g : KGalaxy K) {c s : K} (h : c * c + s * s = 1) :
    decompose env cbins dec (Galaxy.ofBodies (g.rotate (rotZ c s)).toB) =
      decompose env cbins dec (Galaxy.ofBodies g.toB) :=
  decompose_congr env cbins dec _ _ ha (C28_rotation env g h cbins.1 cbins.2)
    (len_map_dm g _) (len_map_gas g _)

/-- C64: the decomposers of the package use circularity attributes only. -/
theorem C64_package {F V σ M : Type} [Num F] (junk : Nat → Int) (epsCut : F) (fit : KMeansFit V σ F)
    (kp : KMeansParams V) (sk : GmmLib V σ M F) (gp : GmmParams V) (nc : V) (cBic : F)
    (sched : List Nat) (s : σ) (rng : Rng σ) (nBin digits nBinE : Int) :
    ∀ dec ∈ [jThreshold junk epsCut, jHistogram junk rng nBin digits s,
        jeHistogram junk rng nBin digits nBinE s, kmeans fit kp s, gaussianMixture sk nc gp s,
        autoGaussianMixture sk cBic gp sched s],
      ∀ a ∈ dec.attributes, a ∈ circularityAttributes := by
  intro dec hd a ha
  simp only [List.mem_cons, List.not_mem_nil, or_false] at hd
  rcases hd with rfl | rfl | rfl | rfl | rfl | rfl <;>
    simp only [jThreshold, jHistogram, jeHistogram, kmeans, gaussianMixture, autoGaussianMixture, clusterAttributes,
      List.mem_cons, List.not_mem_nil, or_false] at ha <;>
    simp [circularityAttributes] <;> tauto

/-- a change of units and a rotation that do something: the galaxies differ, the labels do not -/
example : (⟨1, ![1, 0, 0], ![0, 1, 0], fin (-2)⟩ : KBody ℚ).rescale 3 2
      = ⟨1, ![3, 0, 0], ![0, 2, 0], fin (-8)⟩ ∧
    (⟨1, ![1, 0, 0], ![0, 1, 0], fin (-2)⟩ : KBody ℚ).rotate (rotZ (3/5) (4/5))
      = ⟨1, ![3/5, 4/5, 0], ![-4/5, 3/5, 0], fin (-2)⟩ := by
  constructor
  · simp [KBody.rescale]
    norm_num
  · simp only [KBody.rotate, rotZ, KBody.mk.injEq, true_and, and_true]
    constructor <;> funext i <;> fin_cases i <;> decide +kernel

/-- and the decomposition of that galaxy succeeds -/
example : ((decompose exEnv defaultCbin (jThreshold (fun _ => 7) (q (3/5)))
      (Galaxy.ofBodies exLost)).toOption.map Components.labels)
    = some [some 1, none, none] := by
  decide +kernel

end GChop
