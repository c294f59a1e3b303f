import Verif.Lemmas.Vec
import Verif.Props.Data

/-!
# C13–C17: `utils/_align.py`

Exact arithmetic: a galaxy with finite data is a `KGalaxy` (`BGalaxy.finData_iff`).
-/

set_option linter.unusedSectionVars false

namespace GChop
open Matrix

section exact
variable {K : Type} [Field K] [LinearOrder K] [IsStrictOrderedRing K] [FloorRing K] [HasSqrt K]
  [LawfulSqrt K]

theorem alignMatrix_toB (g : KGalaxy K) (rCut : Option K) :
    alignMatrix (rCut.map Ext.fin) g.toB.stars
      = rotFromJ (.fin (totalL rCut g.stars 0)) (.fin (totalL rCut g.stars 1))
          (.fin (totalL rCut g.stars 2)) := by
  unfold alignMatrix
  simp only [KGalaxy.toB]
  rw [totalInside_body rCut g.stars _ 0 (fun k => by rw [body_jx]; rfl),
    totalInside_body rCut g.stars _ 1 (fun k => by rw [body_jy]; rfl),
    totalInside_body rCut g.stars _ 2 (fun k => by rw [body_jz]; rfl)]

theorem badCut_pos {rCut : Option K} (hc : ∀ c ∈ rCut, 0 < c) :
    badCut (rCut.map Ext.fin) = false := by
  cases rCut with
  | none => rfl
  | some c => simpa [badCut] using hc c rfl

theorem starAlign_toB (g : KGalaxy K) (rCut : Option K) (hc : ∀ c ∈ rCut, 0 < c)
    (hperp : totalL rCut g.stars 0 ≠ 0 ∨ totalL rCut g.stars 1 ≠ 0) :
    starAlign (Galaxy.ofBodies g.toB) (rCut.map .fin)
      = .ok (Galaxy.ofBodies (g.rotate (alignK (totalL rCut g.stars))).toB) := by
  rw [starAlign_ofBodies _ _ (badCut_pos hc), alignMatrix_toB, rotFromJ_fin hperp,
    toB_map (rot_body _)]
  rfl

theorem isStarAligned_toB (g : KGalaxy K) (rCut : Option K) (rtol atol : Ext K) :
    isStarAligned (Galaxy.ofBodies g.toB) (rCut.map .fin) rtol atol
      = .ok (Np.isclose rtol atol (.fin (totalL rCut g.stars 2))
          (.fin (HasSqrt.ksqrt (totalL rCut g.stars ⬝ᵥ totalL rCut g.stars)))) := by
  rw [isStarAligned_ofBodies]
  simp only [KGalaxy.toB]
  rw [totalInside_body rCut g.stars (fun a => a.jx *. a.m) 0
      (fun k => by rw [body_jx, mul_comm]; rfl),
    totalInside_body rCut g.stars (fun a => a.jy *. a.m) 1
      (fun k => by rw [body_jy, mul_comm]; rfl),
    totalInside_body rCut g.stars (fun a => a.jz *. a.m) 2
      (fun k => by rw [body_jz, mul_comm]; rfl)]
  simp only [Ext.num_sq, Ext.num_add]
  rw [← dot_self, Ext.num_sqrt _ (dot_self_nonneg _)]

theorem isclose_self {rtol atol : Ext K} {j : K} (hj : 0 < j) (hr : (Ext.fin 0 <=. rtol) = true)
    (ha : (Ext.fin 0 <=. atol) = true) : Np.isclose rtol atol (.fin j) (.fin j) = true := by
  simp only [Np.isclose, Ext.num_isFinite, Bool.and_self, if_true, Ext.num_sub, sub_self,
    Ext.num_abs, abs_zero]
  cases rtol with
  | nan => cases hr
  | ninf => cases hr
  | pinf =>
    have h1 : ((Ext.pinf : Ext K) *. Ext.fin |j|) = Ext.pinf := by
      show Ext.signInf |j| = _
      simp [Ext.signInf, hj.ne']
    rw [h1]
    cases atol with
    | nan => cases ha
    | ninf => cases ha
    | _ => rfl
  | fin r =>
    cases atol with
    | nan => cases ha
    | ninf => cases ha
    | pinf => rfl
    | fin a =>
      simp only [Ext.num_le, decide_eq_true_eq] at hr ha
      simp only [Ext.num_mul, Ext.num_add, Ext.num_le, decide_eq_true_eq]
      have := mul_nonneg hr (abs_nonneg j)
      linarith

/-! ## C13 -/

/-- C13: after `star_align` the total angular momentum of the stars inside the cut is `(0, 0, |J|)`
and `is_star_aligned` is `True` for all non-negative tolerances. -/
theorem C13_star_align_puts_J_on_z (g : KGalaxy K) (rCut : Option K) (hc : ∀ c ∈ rCut, 0 < c)
    (hperp : totalL rCut g.stars 0 ≠ 0 ∨ totalL rCut g.stars 1 ≠ 0) :
    ∃ g' : KGalaxy K,
      starAlign (Galaxy.ofBodies g.toB) (rCut.map .fin) = .ok (Galaxy.ofBodies g'.toB) ∧
      (∃ j : K, 0 < j ∧ j * j = totalL rCut g.stars ⬝ᵥ totalL rCut g.stars ∧
        totalL rCut g'.stars = ![0, 0, j]) ∧
      ∀ rtol atol : Ext K, (Ext.fin 0 <=. rtol) = true → (Ext.fin 0 <=. atol) = true →
        isStarAligned (Galaxy.ofBodies g'.toB) (rCut.map .fin) rtol atol = .ok true := by
  have hmem := alignK_mem hperp
  have hJ : totalL rCut (g.rotate (alignK (totalL rCut g.stars))).stars
      = ![0, 0, HasSqrt.ksqrt (totalL rCut g.stars ⬝ᵥ totalL rCut g.stars)] := by
    show totalL rCut (g.stars.map _) = _
    rw [totalL_rotate hmem, alignK_mulVec hperp]
  have hpos := ksqrt_pos (J_pos hperp)
  refine ⟨_, starAlign_toB g rCut hc hperp, ⟨_, hpos,
    LawfulSqrt.sqrt_mul_self _ (dot_self_nonneg _), hJ⟩, ?_⟩
  intro rtol atol hr ha
  rw [isStarAligned_toB, hJ]
  generalize HasSqrt.ksqrt (totalL rCut g.stars ⬝ᵥ totalL rCut g.stars) = j at *
  rw [dot_self]
  simp only [Matrix.cons_val_zero, Matrix.cons_val_one, Matrix.cons_val, mul_zero, zero_add]
  rw [ksqrt_mul_self hpos.le, isclose_self hpos hr ha]

/-! ## C14 -/

/-- specific kinetic energy -/
def KBody.kin (k : KBody K) : K := (1 / 2) * (k.v ⬝ᵥ k.v)

/-- C14: `star_align` applies one matrix of `SO(3)` to every position and velocity of every particle
type and changes nothing else. -/
theorem C14_star_align_is_one_rotation (g : KGalaxy K) (rCut : Option K) (hc : ∀ c ∈ rCut, 0 < c)
    (hperp : totalL rCut g.stars 0 ≠ 0 ∨ totalL rCut g.stars 1 ≠ 0) :
    ∃ A ∈ specialOrthogonalGroup (Fin 3) K,
      starAlign (Galaxy.ofBodies g.toB) (rCut.map .fin)
        = .ok (Galaxy.ofBodies (g.rotate A).toB) :=
  ⟨_, alignK_mem hperp, starAlign_toB g rCut hc hperp⟩

/-- C14, consequences: a rotation of the galaxy keeps distances between particles, kinetic
energies (as the code computes them), masses and potentials, and rotates every angular momentum by
the same matrix. -/
theorem C14_rotation_preserves {A : Matrix (Fin 3) (Fin 3) K}
    (hA : A ∈ specialOrthogonalGroup (Fin 3) K) (k l : KBody K) :
    ((k.rotate A).r - (l.rotate A).r) ⬝ᵥ ((k.rotate A).r - (l.rotate A).r)
      = (k.r - l.r) ⬝ᵥ (k.r - l.r) ∧
    (k.rotate A).body.kinetic = k.body.kinetic ∧ (k.rotate A).body.energy = k.body.energy ∧
    (k.rotate A).m = k.m ∧ (k.rotate A).pot = k.pot ∧
    crossProduct (k.rotate A).r (k.rotate A).v = A *ᵥ crossProduct k.r k.v := by
  have hk : ∀ k : KBody K, k.body.kinetic = .fin k.kin := by
    intro k
    simp [Body.kinetic, KBody.body, KBody.kin, dot_self]
  have hkin : (k.rotate A).kin = k.kin := by
    simp [KBody.kin, KBody.rotate, so3_dot hA]
  refine ⟨?_, ?_, ?_, rfl, rfl, so3_cross hA _ _⟩
  · have : (k.rotate A).r - (l.rotate A).r = A *ᵥ (k.r - l.r) := by
      simp [KBody.rotate, Matrix.mulVec_sub]
    rw [this, so3_dot hA]
  · rw [hk, hk, hkin]
  · have : ∀ k : KBody K, k.body.energy = (Ext.fin k.kin +. k.pot) := by
      intro k; unfold Body.energy; rw [hk]; rfl
    rw [this, this, hkin]; rfl

/-- a star on the x axis moving in y and z, one dark matter particle: `J = (0, -1, 1)` -/
noncomputable def exTilted : KGalaxy ℝ :=
  { stars := [⟨1, ![1, 0, 0], ![0, 1, 1], .nan⟩], dm := [⟨1, ![1, 2, 3], ![0, 0, 0], .nan⟩],
    gas := [], hasPot := false, softS := .fin 0, softDm := .fin 0, softG := .fin 0 }

theorem exTilted_J : totalL (some 2) exTilted.stars = ![0, -1, 1] := by
  have : KBody.inside (some (2 : ℝ)) ⟨1, ![1, 0, 0], ![0, 1, 1], .nan⟩ = true := by
    simp [KBody.inside, dotProduct, Fin.sum_univ_three]; norm_num
  simp [totalL, exTilted, this, KBody.L, cross_apply]

-- the hypotheses of C13 and C14 hold for a concrete galaxy and cut
example : (∀ c ∈ some (2 : ℝ), 0 < c) ∧
    (totalL (some 2) exTilted.stars 0 ≠ 0 ∨ totalL (some 2) exTilted.stars 1 ≠ 0) := by
  refine ⟨by simp, Or.inr ?_⟩
  rw [exTilted_J]; simp

/-! ## C15 -/

theorem nan_mul (a : Ext K) : ((Ext.nan : Ext K) *. a) = .nan := by cases a <;> rfl
theorem add_nan (a : Ext K) : (a +. (Ext.nan : Ext K)) = .nan := by cases a <;> rfl
theorem nan_add (a : Ext K) : ((Ext.nan : Ext K) +. a) = .nan := by cases a <;> rfl

theorem dot3_nan (b c x y z : Ext K) : dot3 .nan b c x y z = .nan := by
  show (((Ext.fin 0 : Ext K) +. (.nan *. x)) +. (b *. y)) +. (c *. z) = _
  rw [nan_mul, add_nan, nan_add, nan_add]

theorem nan_div (a : Ext K) : ((Ext.nan : Ext K) /. a) = .nan := by cases a <;> rfl

/-- entries of the matrix when `J` is on the z axis -/
theorem rotFromJ_axis (jz : K) :
    (rotFromJ (.fin 0) (.fin 0) (.fin jz) : Mat3 (Ext K)).e1x = .nan ∧
    (rotFromJ (.fin 0) (.fin 0) (.fin jz) : Mat3 (Ext K)).e2x = .nan := by
  have h0 : (Num.sqrt (Num.sq (.fin 0) +. Num.sq (.fin 0)) : Ext K) = .fin 0 := by
    simp only [Ext.num_sq, Ext.num_add, mul_zero, add_zero]
    rw [Ext.num_sqrt _ le_rfl, ksqrt_zero]
  have hs : (Ext.fin (0 : K) /. Ext.fin 0) = .nan := by
    rw [Ext.num_div_zero]; simp [Ext.signInf]
  constructor
  · simp only [rotFromJ, h0, hs]
  · simp only [rotFromJ, h0]
    simp only [Ext.num_sq, Ext.num_add]
    rw [Ext.num_sqrt _ (by linarith [mul_self_nonneg jz])]
    simp only [Ext.num_mul, zero_mul]
    exact hs

/-- C15 is false: if the total angular momentum inside the cut is on the z axis in either direction,
or zero (for instance because no star is inside the cut), `star_align` returns a galaxy in which
the x and y components of every position and velocity are NaN. -/
theorem C15_axis_gives_nan (g : KGalaxy K) (rCut : Option K) (hc : ∀ c ∈ rCut, 0 < c)
    (hx : totalL rCut g.stars 0 = 0) (hy : totalL rCut g.stars 1 = 0) :
    ∃ b : BGalaxy (Ext K),
      starAlign (Galaxy.ofBodies g.toB) (rCut.map .fin) = .ok (Galaxy.ofBodies b) ∧
      b.all.length = g.all.length ∧
      ∀ a ∈ b.all, a.x = .nan ∧ a.y = .nan ∧ a.vx = .nan ∧ a.vy = .nan := by
  have h := rotFromJ_axis (K := K) (totalL rCut g.stars 2)
  rw [starAlign_ofBodies _ _ (badCut_pos hc), alignMatrix_toB, hx, hy]
  refine ⟨_, rfl, ?_, ?_⟩
  · rw [mapBodies_all]; simp [BGalaxy.all, KGalaxy.all, KGalaxy.toB]
  · intro a ha
    rw [mapBodies_all, List.mem_map] at ha
    obtain ⟨c, _, rfl⟩ := ha
    simp only [Body.rot, h.1, h.2, dot3_nan, and_self]

/-- C15 is false for every galaxy: aligning twice never gives the result of aligning once. -/
theorem C15_never_idempotent (g : KGalaxy K) (hne : g.stars ≠ []) (rCut : Option K)
    (hc : ∀ c ∈ rCut, 0 < c)
    (hperp : totalL rCut g.stars 0 ≠ 0 ∨ totalL rCut g.stars 1 ≠ 0) :
    (starAlign (Galaxy.ofBodies g.toB) (rCut.map .fin) >>= fun h => starAlign h (rCut.map .fin))
      ≠ starAlign (Galaxy.ofBodies g.toB) (rCut.map .fin) := by
  obtain ⟨g', h1, ⟨j, _, _, hJ⟩, _⟩ := C13_star_align_puts_J_on_z g rCut hc hperp
  obtain ⟨b, h2, hl, h3⟩ := C15_axis_gives_nan g' rCut hc (by rw [hJ]; rfl) (by rw [hJ]; rfl)
  have h1' := starAlign_toB g rCut hc hperp
  rw [h1, Py.ok_bind, h2]
  intro he
  injection he with he
  have hx := congrArg (fun g => g.stars.x) he
  have hx1 := congrArg (fun g => (match g with | .ok g => g.stars.x | .error _ => [])) (h1.symm.trans h1')
  have hlen := congrArg List.length hx
  cases hg' : g'.stars with
  | nil =>
    simp [Galaxy.ofBodies, ParticleSet.ofBodies, BGalaxy.sSet, KGalaxy.toB, KGalaxy.rotate,
      KGalaxy.map, hg', hne] at hx1
  | cons k ks =>
    cases hb : b.stars with
    | nil =>
      simp [Galaxy.ofBodies, ParticleSet.ofBodies, BGalaxy.sSet, KGalaxy.toB, hb, hg'] at hlen
    | cons a as =>
      have := h3 a (by simp [BGalaxy.all, hb])
      simp [Galaxy.ofBodies, ParticleSet.ofBodies, BGalaxy.sSet, KGalaxy.toB, hb, hg', this.1,
        KBody.body] at hx

/-- C15, the part that holds: a second alignment still succeeds and keeps masses, potentials, `z`
and `vz`.  Missing: `x`, `y`, `vx`, `vy`, which `C15_never_idempotent` shows are lost. -/
theorem C15_second_alignment_partial (g : KGalaxy K) (rCut : Option K) (hc : ∀ c ∈ rCut, 0 < c)
    (hperp : totalL rCut g.stars 0 ≠ 0 ∨ totalL rCut g.stars 1 ≠ 0) :
    ∃ b b' : BGalaxy (Ext K),
      starAlign (Galaxy.ofBodies g.toB) (rCut.map .fin) = .ok (Galaxy.ofBodies b) ∧
      starAlign (Galaxy.ofBodies b) (rCut.map .fin) = .ok (Galaxy.ofBodies b') ∧
      b'.stars.map (fun a => (a.m, a.pot, a.z, a.vz)) = b.stars.map (fun a => (a.m, a.pot, a.z, a.vz)) ∧
      b'.dm.map (fun a => (a.m, a.pot, a.z, a.vz)) = b.dm.map (fun a => (a.m, a.pot, a.z, a.vz)) ∧
      b'.gas.map (fun a => (a.m, a.pot, a.z, a.vz)) = b.gas.map (fun a => (a.m, a.pot, a.z, a.vz)) := by
  obtain ⟨g', h1, ⟨j, hj, _, hJ⟩, _⟩ := C13_star_align_puts_J_on_z g rCut hc hperp
  refine ⟨_, _, h1, starAlign_ofBodies _ _ (badCut_pos hc), ?_⟩
  rw [alignMatrix_toB, hJ]
  simp only [Matrix.cons_val_zero, Matrix.cons_val_one, Matrix.cons_val]
  have hjj : (Num.sqrt (Num.sq (.fin 0) +. Num.sq (.fin 0) +. Num.sq (.fin j)) : Ext K) = .fin j := by
    simp only [Ext.num_sq, Ext.num_add, mul_zero, add_zero, zero_add]
    rw [Ext.num_sqrt _ (by positivity), ksqrt_mul_self hj.le]
  have key : ∀ l : List (KBody K),
      ((l.map KBody.body).map (Body.rot (rotFromJ (.fin 0) (.fin 0) (.fin j)))).map
        (fun a => (a.m, a.pot, a.z, a.vz))
      = (l.map KBody.body).map (fun a => (a.m, a.pot, a.z, a.vz)) := by
    intro l
    simp only [List.map_map]
    apply List.map_congr_left
    intro k _
    simp only [Function.comp_apply, Body.rot, rotFromJ, hjj, Ext.num_div _ _ hj.ne', zero_div,
      div_self hj.ne', KBody.body, dot3_fin]
    simp
  exact ⟨key _, key _, key _⟩

end exact

/-- a star in circular motion in the plane, `J = (0, 0, 2)` -/
def exOnAxis : KGalaxy ℚ :=
  { stars := [⟨1, ![1, 0, 0], ![0, 2, 0], .nan⟩], dm := [], gas := [], hasPot := false,
    softS := q 0, softDm := q 0, softG := q 0 }

-- already aligned, and destroyed by aligning it
example : isStarAligned (Galaxy.ofBodies exOnAxis.toB) none (q 0) (q 0) = .ok true := by
  decide +kernel
example : (match starAlign (Galaxy.ofBodies exOnAxis.toB) none with
    | .ok g => (g.stars.x, g.stars.vy, g.stars.z) | .error _ => ([], [], []))
    = ([.nan], [.nan], [q 0]) := by decide +kernel

/-! ## C16 -/

section generic
variable {F : Type} [Num F]

/-- C16: a non-positive cut is rejected. -/
theorem C16_rejects_nonpositive (g : Galaxy F) (c : F) (h : (c <=. Num.ofRat 0) = true) :
    starAlign g (some c) = .error .valueError :=
  starAlign_bad g (some c) h

/-- C16: a cut larger than every stellar radius is no cut. -/
theorem C16_large_cut (b : BGalaxy F) (c : F) (hc : (c <=. Num.ofRat 0) = false)
    (h : ∀ a ∈ b.stars, (Num.sqrt ((Num.sq a.x +. Num.sq a.y) +. Num.sq a.z) <. c) = true) :
    starAlign (Galaxy.ofBodies b) (some c) = starAlign (Galaxy.ofBodies b) none := by
  rw [starAlign_ofBodies b (some c) hc, starAlign_ofBodies b none rfl]
  have hf : b.stars.filter (Body.inside (some c)) = b.stars.filter (Body.inside none) := by
    apply List.filter_congr
    intro a ha
    simpa [Body.inside] using h a ha
  have : alignMatrix (some c) b.stars = alignMatrix none b.stars := by
    simp [alignMatrix, totalInside, hf]
  rw [this]

/-- C16: the rotation depends only on the stars inside the cut (whatever the rounding): two galaxies
that agree on them, in order, are rotated by the same matrix. -/
theorem C16_depends_on_inside (b₁ b₂ : BGalaxy F) (c : F) (hc : (c <=. Num.ofRat 0) = false)
    (h : (b₁.stars.filter fun a => Num.sqrt ((Num.sq a.x +. Num.sq a.y) +. Num.sq a.z) <. c)
      = b₂.stars.filter fun a => Num.sqrt ((Num.sq a.x +. Num.sq a.y) +. Num.sq a.z) <. c) :
    ∃ A : Mat3 F,
      starAlign (Galaxy.ofBodies b₁) (some c) = .ok (Galaxy.ofBodies (b₁.mapBodies (Body.rot A))) ∧
      starAlign (Galaxy.ofBodies b₂) (some c)
        = .ok (Galaxy.ofBodies (b₂.mapBodies (Body.rot A))) := by
  refine ⟨alignMatrix (some c) b₁.stars, starAlign_ofBodies b₁ _ hc, ?_⟩
  rw [starAlign_ofBodies b₂ (some c) hc]
  have h' : b₁.stars.filter (Body.inside (some c)) = b₂.stars.filter (Body.inside (some c)) := h
  simp [alignMatrix, totalInside, h']

example : starAlign (Galaxy.ofBodies exBG) (some (q 0)) = .error .valueError := by decide +kernel
-- hypotheses of `C16_large_cut` and `C16_depends_on_inside` on concrete galaxies
example : (q 2 <=. Num.ofRat 0) = false ∧ ∀ a ∈ exOnAxis.toB.stars,
    (Num.sqrt ((Num.sq a.x +. Num.sq a.y) +. Num.sq a.z) <. q 2) = true := by
  decide +kernel
example : let far : Body (Ext ℚ) := ⟨q 9, q 0, q 3, q 4, q 1, q 1, q 1, .nan⟩
    let inCut (l : List (Body (Ext ℚ))) :=
      l.filter fun a => Num.sqrt ((Num.sq a.x +. Num.sq a.y) +. Num.sq a.z) <. q 2
    inCut (exOnAxis.toB.stars ++ [far]) = inCut exOnAxis.toB.stars ∧
      inCut exOnAxis.toB.stars ≠ [] := by
  decide +kernel
end generic

/-! ## C17 -/

section exact2
variable {K : Type} [Field K] [LinearOrder K] [IsStrictOrderedRing K] [FloorRing K] [HasSqrt K]
  [LawfulSqrt K]

/-- C17: `is_star_aligned` is the tolerance test between the z component and the length of the total
angular momentum of the stars inside the cut. -/
theorem C17_is_star_aligned_iff (g : KGalaxy K) (rCut : Option K) (rtol atol j : K) (hj : 0 ≤ j)
    (hjj : j * j = totalL rCut g.stars ⬝ᵥ totalL rCut g.stars) :
    isStarAligned (Galaxy.ofBodies g.toB) (rCut.map .fin) (.fin rtol) (.fin atol) = .ok
      (decide (|totalL rCut g.stars 2 - j| ≤ atol + rtol * j)) := by
  rw [isStarAligned_toB, ← hjj, ksqrt_mul_self hj]
  simp [Np.isclose, abs_of_nonneg hj]

/-- C17: with zero tolerances the test holds iff the total angular momentum is zero or points along
`+z`. -/
theorem C17_zero_tolerance (g : KGalaxy K) (rCut : Option K) :
    isStarAligned (Galaxy.ofBodies g.toB) (rCut.map .fin) (.fin 0) (.fin 0) = .ok true ↔
      totalL rCut g.stars 0 = 0 ∧ totalL rCut g.stars 1 = 0 ∧ 0 ≤ totalL rCut g.stars 2 := by
  set J := totalL rCut g.stars with hJ
  have hn := LawfulSqrt.sqrt_nonneg (J ⬝ᵥ J)
  have hs := LawfulSqrt.sqrt_mul_self (J ⬝ᵥ J) (dot_self_nonneg _)
  rw [C17_is_star_aligned_iff g rCut 0 0 _ hn hs, ← hJ]
  rw [dot_self] at hs
  simp only [zero_mul, add_zero, Except.ok.injEq, decide_eq_true_eq, abs_nonpos_iff]
  constructor
  · intro h
    have h2 : J 2 = HasSqrt.ksqrt (J ⬝ᵥ J) := sub_eq_zero.1 h
    rw [dot_self] at h2
    rw [← h2] at hs
    have h0 : J 0 * J 0 = 0 := by nlinarith [mul_self_nonneg (J 0), mul_self_nonneg (J 1)]
    have h1 : J 1 * J 1 = 0 := by nlinarith [mul_self_nonneg (J 0), mul_self_nonneg (J 1)]
    refine ⟨mul_self_eq_zero.1 h0, mul_self_eq_zero.1 h1, ?_⟩
    rw [h2, ← dot_self]; exact hn
  · rintro ⟨h0, h1, h2⟩
    rw [dot_self, h0, h1]
    simp [ksqrt_mul_self h2]

/-- C17: with no star inside the cut the answer is `True`. -/
theorem C17_no_star_inside (g : KGalaxy K) (rCut : Option K)
    (h : ∀ k ∈ g.stars, k.inside rCut = false) (rtol atol : K) (ha : 0 ≤ atol) :
    isStarAligned (Galaxy.ofBodies g.toB) (rCut.map .fin) (.fin rtol) (.fin atol) = .ok true := by
  have h0 : totalL rCut g.stars = 0 := by
    unfold totalL
    rw [List.filter_eq_nil_iff.2 (by intro k hk; simp [h k hk])]
    rfl
  rw [C17_is_star_aligned_iff g rCut rtol atol 0 le_rfl (by simp [h0])]
  simpa [h0] using ha

example : ∃ g : KGalaxy ℝ, isStarAligned (Galaxy.ofBodies g.toB) none (.fin 0) (.fin 0) ≠ .ok true := by
  refine ⟨exTilted, fun h => ?_⟩
  have := (C17_zero_tolerance exTilted none).1 h
  have hJ : totalL none exTilted.stars = ![0, -1, 1] := by
    have hi : ∀ k : KBody ℝ, k.inside none = true := fun _ => rfl
    simp [totalL, exTilted, hi, KBody.L, cross_apply]
  rw [hJ] at this
  simp at this

end exact2
end GChop
